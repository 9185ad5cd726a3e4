import Verif.Mqo.Mqx
import Verif.Mqo.TextProps
import Verif.Mqo.NamesProps

/-! Theorems about the files of Metasequoia documents (C170). -/

namespace Verif.Mqo

open Verif.Geom

variable {F : Type}

/-- Facts about `strconv` and `fmt`: finite numbers and integers in the range `ok` come back. -/
structure XmlLaws (num : XmlNum F) (fin : F → Prop) (ok : Int → Prop) : Prop where
  v : ∀ x, fin x → num.readV (num.showV x) = some x
  comma : ∀ x, fin x → ',' ∉ num.showV x
  g : ∀ x, fin x → num.showG x ≠ [] ∧ num.readG (num.showG x) = some x
  i : ∀ i, ok i → num.readI (showInt i) = some i

/-! ### Attributes -/

theorem showInt_ne (i : Int) : showInt i ≠ [] := by
  have h : ∀ n : Nat, showNat n ≠ [] := by
    intro n e
    have := Nat.toDigits_ne_nil (n := n) (b := 10)
    exact this e
  unfold showInt
  split
  · simp
  · exact h _

theorem splitComma_append (a rest : Str) (h : ',' ∉ a) : splitComma (a ++ ',' :: rest) = a :: splitComma rest := by
  induction a with
  | nil => simp [splitComma]
  | cons c a ih =>
    rw [List.cons_append, splitComma, if_neg (fun e => h (by simp [e])), ih fun hm => h (by simp [hm])]

theorem splitComma_one (a : Str) (h : ',' ∉ a) : splitComma a = [a] := by
  induction a with
  | nil => rfl
  | cons c a ih => rw [splitComma, if_neg (fun e => h (by simp [e])), ih fun hm => h (by simp [hm])]

section

variable [Zero F] {num : XmlNum F} {fin : F → Prop} {ok : Int → Prop}

theorem vec_back (hl : XmlLaws num fin ok) (v : Vec3 F) (h : fin v.x ∧ fin v.y ∧ fin v.z) :
    readVecAttr num (showVecAttr num v) = v := by
  unfold readVecAttr showVecAttr
  rw [splitComma_append _ _ (hl.comma _ h.1), splitComma_append _ _ (hl.comma _ h.2.1), splitComma_one _ (hl.comma _ h.2.2)]
  simp only [List.map_cons, List.map_nil, hl.v _ h.1, hl.v _ h.2.1, hl.v _ h.2.2]

omit [Zero F] in
theorem int_some (hl : XmlLaws num fin ok) (x : Xml) (n : Str) (i : Int) (hi : ok i)
    (h : x.attrs.lookup n = some (showInt i)) : x.int num n = some i := by
  unfold Xml.int
  rw [h]
  simp only
  rw [if_neg (showInt_ne i), hl.i i hi]

omit [Zero F] in
theorem int_opt (hl : XmlLaws num fin ok) (x : Xml) (n : Str) (i : Int) (hi : ok i)
    (h : x.attrs.lookup n = if i = 0 then none else some (showInt i)) : x.int num n = some i := by
  by_cases e : i = 0
  · rw [if_pos e] at h
    unfold Xml.int
    rw [h, e]
  · rw [if_neg e] at h
    exact int_some hl x n i hi h

theorem float_some (hl : XmlLaws num fin ok) (x : Xml) (n : Str) (y : F) (hy : fin y)
    (h : x.attrs.lookup n = some (num.showG y)) : x.float num n = some y := by
  unfold Xml.float
  rw [h]
  simp only
  rw [if_neg (hl.g y hy).1, (hl.g y hy).2]

end

theorem lookup_attrs (num : XmlNum F) (n1 n2 n3 n4 n5 n6 n7 n8 n9 n10 n11 : Str)
    (hn : [n1, n2, n3, n4, n5, n6, n7, n8, n9, n10, n11].Nodup) (v1 v2 v5 s9 : Str) (i3 i4 i6 i7 i8 : Int)
    (p10 p11 : Option (Vec3 F)) :
    let l := [(n1, v1), (n2, v2)] ++ optInt n3 i3 ++ optInt n4 i4 ++ [(n5, v5)] ++ optInt n6 i6 ++ optInt n7 i7 ++ optInt n8 i8 ++
      optStr n9 s9 ++ optVec num n10 p10 ++ optVec num n11 p11
    l.lookup n1 = some v1 ∧ l.lookup n2 = some v2 ∧ l.lookup n3 = (if i3 = 0 then none else some (showInt i3)) ∧
    l.lookup n4 = (if i4 = 0 then none else some (showInt i4)) ∧ l.lookup n5 = some v5 ∧
    l.lookup n6 = (if i6 = 0 then none else some (showInt i6)) ∧ l.lookup n7 = (if i7 = 0 then none else some (showInt i7)) ∧
    l.lookup n8 = (if i8 = 0 then none else some (showInt i8)) ∧ (l.lookup n9).getD [] = s9 ∧
    l.lookup n10 = p10.map (showVecAttr num) ∧ l.lookup n11 = p11.map (showVecAttr num) := by
  have hi : ∀ (n : Str) (i : Int) (k : Str), (optInt n i).lookup k = if k = n ∧ i ≠ 0 then some (showInt i) else none := by
    intro n i k
    unfold optInt
    by_cases h : i = 0
    · simp [h]
    · by_cases hk : k = n
      · simp [h, hk]
      · have hk' : (k == n) = false := by simpa using hk
        simp [h, hk, List.lookup_cons, hk']
  have hs : ∀ (n s : Str) (k : Str), (optStr n s).lookup k = if k = n ∧ s ≠ [] then some s else none := by
    intro n s k
    unfold optStr
    by_cases h : s = []
    · simp [h]
    · by_cases hk : k = n
      · simp [h, hk]
      · have hk' : (k == n) = false := by simpa using hk
        simp [h, hk, List.lookup_cons, hk']
  have hv : ∀ (n : Str) (p : Option (Vec3 F)) (k : Str), (optVec num n p).lookup k = if k = n then p.map (showVecAttr num) else none := by
    intro n p k
    cases p with
    | none => simp [optVec]
    | some v =>
      by_cases hk : k = n
      · simp [optVec, hk]
      · have hk' : (k == n) = false := by simpa using hk
        simp [optVec, hk, List.lookup_cons, hk']
  have hc : ∀ (n v : Str) (l : List (Str × Str)) (k : Str), ((n, v) :: l).lookup k = if k = n then some v else l.lookup k := by
    intro n v l k
    by_cases hk : k = n
    · simp [hk]
    · have hk' : (k == n) = false := by simpa using hk
      simp [hk, List.lookup_cons, hk']
  simp only [List.nodup_cons, List.mem_cons, not_or, List.not_mem_nil, not_false_eq_true, and_true, List.nodup_nil] at hn
  simp only [List.lookup_append, hi, hs, hv, hc, List.lookup_nil]
  obtain ⟨⟨a1, a2, a3, a4, a5, a6, a7, a8, a9, a10⟩, ⟨b1, b2, b3, b4, b5, b6, b7, b8, b9⟩, ⟨c1, c2, c3, c4, c5, c6, c7, c8⟩,
    ⟨d1, d2, d3, d4, d5, d6, d7⟩, ⟨e1, e2, e3, e4, e5, e6⟩, ⟨f1, f2, f3, f4, f5⟩, ⟨g1, g2, g3, g4⟩, ⟨h1, h2, h3⟩, ⟨k1, k2⟩, m1⟩ := hn
  clear hi hs hv hc
  refine ⟨?_, ?_, ?_, ?_, ?_, ?_, ?_, ?_, ?_, ?_, ?_⟩
  all_goals
    simp only [a1, a2, a3, a4, a5, a6, a7, a8, a9, a10, b1, b2, b3, b4, b5, b6, b7, b8, b9, c1, c2, c3, c4, c5, c6, c7, c8, d1, d2,
      d3, d4, d5, d6, d7, e1, e2, e3, e4, e5, e6, f1, f2, f3, f4, f5, g1, g2, g3, g4, h1, h2, h3, k1, k2, m1,
      Ne.symm a1, Ne.symm a2, Ne.symm a3, Ne.symm a4, Ne.symm a5, Ne.symm a6, Ne.symm a7, Ne.symm a8, Ne.symm a9, Ne.symm a10,
      Ne.symm b1, Ne.symm b2, Ne.symm b3, Ne.symm b4, Ne.symm b5, Ne.symm b6, Ne.symm b7, Ne.symm b8, Ne.symm b9, Ne.symm c1,
      Ne.symm c2, Ne.symm c3, Ne.symm c4, Ne.symm c5, Ne.symm c6, Ne.symm c7, Ne.symm c8, Ne.symm d1, Ne.symm d2, Ne.symm d3,
      Ne.symm d4, Ne.symm d5, Ne.symm d6, Ne.symm d7, Ne.symm e1, Ne.symm e2, Ne.symm e3, Ne.symm e4, Ne.symm e5, Ne.symm e6,
      Ne.symm f1, Ne.symm f2, Ne.symm f3, Ne.symm f4, Ne.symm f5, Ne.symm g1, Ne.symm g2, Ne.symm g3, Ne.symm g4, Ne.symm h1,
      Ne.symm h2, Ne.symm h3, Ne.symm k1, Ne.symm k2, Ne.symm m1, if_true, if_false, false_and, true_and, Option.or_none,
      Option.none_or, Option.some_or]
  all_goals first | done | skip
  · by_cases e : i3 = 0 <;> simp [e]
  · by_cases e : i4 = 0 <;> simp [e]
  · by_cases e : i6 = 0 <;> simp [e]
  · by_cases e : i7 = 0 <;> simp [e]
  · by_cases e : i8 = 0 <;> simp [e]
  · by_cases e : s9 = [] <;> simp [e]

/-! ### Elements -/

theorem mapM_back {α β : Type} (f : α → β) (g : β → Option α) (l : List α) (h : ∀ a ∈ l, g (f a) = some a) :
    (l.map f).mapM g = some l := by
  induction l with
  | nil => rfl
  | cons a l ih =>
    rw [List.map_cons, List.mapM_cons, h a (by simp), ih fun b hb => h b (by simp [hb])]
    rfl

theorem all_map {α : Type} (f : α → Xml) (n : Str) (l : List α) (h : ∀ a, (f a).name = n) : (l.map f).filter (fun c => c.name = n) = l.map f := by
  rw [List.filter_eq_self]
  intro x hx
  obtain ⟨a, -, rfl⟩ := List.mem_map.1 hx
  simpa using h a

theorem none_map {α : Type} (f : α → Xml) (n m : Str) (l : List α) (h : ∀ a, (f a).name = n) (hne : n ≠ m) :
    (l.map f).filter (fun c => c.name = m) = [] := by
  rw [List.filter_eq_nil_iff]
  intro x hx
  obtain ⟨a, -, rfl⟩ := List.mem_map.1 hx
  simpa [h a] using hne

section

variable [Zero F] {num : XmlNum F} {fin : F → Prop} {ok : Int → Prop}

theorem vertexWeight_back (hl : XmlLaws num fin ok) (w : VertexWeight F) (h : ok w.vertexID ∧ fin w.weight) :
    decodeVertexWeight num (encodeVertexWeight num w) = some w := by
  have h1 := int_some hl (encodeVertexWeight num w) "v".toList w.vertexID h.1 rfl
  have h2 := float_some hl (encodeVertexWeight num w) "w".toList w.weight h.2 rfl
  unfold decodeVertexWeight
  rw [h1, h2]
  rfl

theorem weightGroup_back (hl : XmlLaws num fin ok) (g : WeightGroup F)
    (h : ok g.objectID ∧ ∀ w ∈ g.vertexes, ok w.vertexID ∧ fin w.weight) :
    decodeWeightGroup num (encodeWeightGroup num g) = some g := by
  have h1 := int_some hl (encodeWeightGroup num g) "obj".toList g.objectID h.1 rfl
  have h2 : (encodeWeightGroup num g).all "V".toList = g.vertexes.map (encodeVertexWeight num) :=
    all_map _ _ _ fun _ => rfl
  unfold decodeWeightGroup
  rw [h1, h2, mapM_back _ _ _ fun w hw => vertexWeight_back hl w (h.2 w hw)]
  rfl

omit [Zero F] in
theorem ik_back (hl : XmlLaws num fin ok) (k : BoneIK) (h : ok k.chainCount) : decodeIK num (encodeIK k) = some k := by
  have h1 := int_some hl (encodeIK k) "chain".toList k.chainCount h rfl
  unfold decodeIK
  rw [h1]
  rfl

/-- The numbers of a bone that are written to the file. -/
structure BoneWritable (fin : F → Prop) (ok : Int → Prop) (b : Bone F) : Prop where
  id : ok b.id
  group : ok b.group
  parent : ok b.parent
  pos : fin b.pos.x ∧ fin b.pos.y ∧ fin b.pos.z
  movable : ok b.movable
  hide : ok b.hide
  dummy : ok b.dummy
  up : ∀ v, b.upVector = some v → fin v.x ∧ fin v.y ∧ fin v.z
  rotate : ∀ v, b.rotate = some v → fin v.x ∧ fin v.y ∧ fin v.z
  ik : ∀ k, b.ik = some k → ok k.chainCount
  weights : ∀ g ∈ b.weights, ok g.objectID ∧ ∀ w ∈ g.vertexes, ok w.vertexID ∧ fin w.weight

/-- What a bone keeps in a file. -/
def Bone.kept (b : Bone F) : Bone F := { b with weightMap := [], rotationOffset := ⟨0, 0, 0⟩ }

/-- C170: a bone written to a file and read back is the same, with all weights; only the internal rotation offset (and the
index of the weights) is lost. -/
theorem bone_back (hl : XmlLaws num fin ok) (b : Bone F) (h : BoneWritable fin ok b) :
    decodeBone num (encodeBone num b) = some b.kept := by
  obtain ⟨a1, a2, a3, a4, a5, a6, a7, a8, a9, a10, a11⟩ := lookup_attrs num "id".toList "name".toList "group".toList
    "parent".toList "pos".toList "movable".toList "hide".toList "dummy".toList "color".toList "upVector".toList "rotate".toList
    (by decide) (showInt b.id) b.name (showVecAttr num b.pos) b.color b.group b.parent b.movable b.hide b.dummy b.upVector b.rotate
  have e1 := int_some hl (encodeBone num b) "id".toList b.id h.id a1
  have e3 := int_opt hl (encodeBone num b) "group".toList b.group h.group a3
  have e4 := int_opt hl (encodeBone num b) "parent".toList b.parent h.parent a4
  have e6 := int_opt hl (encodeBone num b) "movable".toList b.movable h.movable a6
  have e7 := int_opt hl (encodeBone num b) "hide".toList b.hide h.hide a7
  have e8 := int_opt hl (encodeBone num b) "dummy".toList b.dummy h.dummy a8
  have e2 : (encodeBone num b).str "name".toList = b.name := by
    show (List.lookup _ _).getD [] = _
    rw [encodeBone]
    simp only [Xml.attrs]
    rw [a2]
    rfl
  have e9 : (encodeBone num b).str "color".toList = b.color := a9
  have e5 : (encodeBone num b).vec num "pos".toList = b.pos := by
    have : (encodeBone num b).attrs.lookup "pos".toList = some (showVecAttr num b.pos) := a5
    rw [Xml.vec, this]
    exact vec_back hl b.pos h.pos
  have back : ∀ (o : Option (Vec3 F)), (∀ v, o = some v → fin v.x ∧ fin v.y ∧ fin v.z) →
      (o.map (showVecAttr num)).map (readVecAttr num) = o := by
    intro o ho
    cases o with
    | none => rfl
    | some v => simp only [Option.map_some]; rw [vec_back hl v (ho v rfl)]
  have e10 : ((encodeBone num b).attrs.lookup "upVector".toList).map (readVecAttr num) = b.upVector := by
    have : (encodeBone num b).attrs.lookup "upVector".toList = b.upVector.map (showVecAttr num) := a10
    rw [this, back _ h.up]
  have e11 : ((encodeBone num b).attrs.lookup "rotate".toList).map (readVecAttr num) = b.rotate := by
    have : (encodeBone num b).attrs.lookup "rotate".toList = b.rotate.map (showVecAttr num) := a11
    rw [this, back _ h.rotate]
  have eik : decodeOpt (decodeIK num) ((encodeBone num b).child "IK".toList) = some b.ik := by
    have hc : (encodeBone num b).child "IK".toList = b.ik.map encodeIK := by
      show (List.filter _ (b.ik.toList.map encodeIK ++ b.weights.map (encodeWeightGroup num))).getLast? = _
      rw [List.filter_append, all_map encodeIK "IK".toList _ fun _ => rfl,
        none_map (encodeWeightGroup num) "W".toList _ _ (fun _ => rfl) (by decide), List.append_nil]
      cases b.ik <;> rfl
    rw [hc]
    have := h.ik
    cases hk : b.ik with
    | none => rfl
    | some k =>
      simp only [Option.map_some, decodeOpt]
      rw [ik_back hl k (this k hk)]
      rfl
  have ew : ((encodeBone num b).all "W".toList).mapM (decodeWeightGroup num) = some b.weights := by
    have hc : (encodeBone num b).all "W".toList = b.weights.map (encodeWeightGroup num) := by
      show List.filter _ (b.ik.toList.map encodeIK ++ b.weights.map (encodeWeightGroup num)) = _
      rw [List.filter_append, none_map encodeIK "IK".toList _ _ (fun _ => rfl) (by decide),
        all_map (encodeWeightGroup num) "W".toList _ fun _ => rfl, List.nil_append]
    rw [hc, mapM_back _ _ _ fun g hg => weightGroup_back hl g (h.weights g hg)]
  unfold decodeBone
  rw [e1, e2, e3, e4, e5, e6, e7, e8, e9, e10, e11, eik, ew]
  rfl

/-- The numbers of a plugin that are written to the file. -/
structure PluginWritable (fin : F → Prop) (ok : Int → Prop) (p : BonePlugin F) : Prop where
  bones : ∀ b ∈ p.bones, BoneWritable fin ok b
  obj : ∀ i ∈ p.obj, ok i

/-- What the bone plugin keeps in a file. -/
def BonePlugin.kept (p : BonePlugin F) : BonePlugin F := { p with boneSet := [], bones := p.bones.map Bone.kept }

theorem mapM_map {α β γ : Type} (f : α → β) (g : β → Option γ) (k : α → γ) (l : List α) (h : ∀ a ∈ l, g (f a) = some (k a)) :
    (l.map f).mapM g = some (l.map k) := by
  induction l with
  | nil => rfl
  | cons a l ih =>
    rw [List.map_cons, List.mapM_cons, h a (by simp), ih fun b hb => h b (by simp [hb])]
    rfl

/-- The element of an object id. -/
def encodeObj (i : Int) : Xml := .node "Obj".toList [("id".toList, showInt i)] []

theorem bonePlugin_back (hl : XmlLaws num fin ok) (p : BonePlugin F) (h : PluginWritable fin ok p) :
    decodeBonePlugin num (encodeBonePlugin num p) = some p.kept := by
  have h1 : (encodeBonePlugin num p).child "BoneSet2".toList =
      some (.node "BoneSet2".toList [] (p.bones.map (encodeBone num))) := by
    show (List.filter _ ([_, _, _] ++ p.obj.map encodeObj)).getLast? = _
    rw [List.filter_append, none_map encodeObj "Obj".toList _ _ (fun _ => rfl) (by decide), List.append_nil]
    rfl
  have h2 : (encodeBonePlugin num p).all "Obj".toList = p.obj.map encodeObj := by
    show List.filter _ ([_, _, _] ++ p.obj.map encodeObj) = _
    rw [List.filter_append, all_map encodeObj "Obj".toList _ fun _ => rfl]
    rfl
  have h3 : (Xml.node "BoneSet2".toList [] (p.bones.map (encodeBone num))).all "Bone".toList = p.bones.map (encodeBone num) :=
    all_map _ _ _ fun _ => rfl
  unfold decodeBonePlugin
  rw [h1, h2]
  simp only [decodeOpt]
  rw [h3, mapM_map _ _ Bone.kept _ fun b hb => bone_back hl b (h.bones b hb),
    mapM_back _ _ _ fun i hi => int_some hl (encodeObj i) "id".toList i (h.obj i hi) rfl]
  rfl

omit [Zero F] in
theorem target_back (hl : XmlLaws num fin ok) (t : MorphTarget) (h : ok t.param) : decodeTarget num (encodeTarget t) = some t := by
  have h1 := int_some hl (encodeTarget t) "param".toList t.param h rfl
  unfold decodeTarget
  rw [h1]
  rfl

omit [Zero F] in
theorem targetList_back (hl : XmlLaws num fin ok) (l : MorphTargetList) (h : ∀ t ∈ l.target, ok t.param) :
    decodeTargetList num (encodeTargetList l) = some l := by
  have h2 : (encodeTargetList l).all "Target".toList = l.target.map encodeTarget := all_map _ _ _ fun _ => rfl
  unfold decodeTargetList
  rw [h2, mapM_back _ _ _ fun t ht => target_back hl t (h t ht)]
  rfl

omit [Zero F] in
theorem morphPlugin_back (hl : XmlLaws num fin ok) (l : List MorphTargetList) (h : ∀ m ∈ l, ∀ t ∈ m.target, ok t.param) :
    decodeMorphPlugin num (encodeMorphPlugin l) = some l := by
  have h1 : (encodeMorphPlugin l).child "MorphSet".toList = some (.node "MorphSet".toList [] (l.map encodeTargetList)) := rfl
  have h3 : (Xml.node "MorphSet".toList [] (l.map encodeTargetList)).all "TargetList".toList = l.map encodeTargetList :=
    all_map _ _ _ fun _ => rfl
  unfold decodeMorphPlugin
  rw [h1]
  simp only [decodeOpt]
  rw [h3, mapM_back _ _ _ fun m hm => targetList_back hl m (h m hm)]
  rfl

/-- The numbers of the plugins of a document that are written to the `.mqx` file. -/
structure DocWritable (fin : F → Prop) (ok : Int → Prop) (doc : Document F) : Prop where
  bone : ∀ p, doc.bonePlugin = some p → PluginWritable fin ok (p.preSerialize doc.objects)
  morph : ∀ l, doc.morphPlugin = some l → ∀ m ∈ l, ∀ t ∈ m.target, ok t.param

/-- C170: the plugins that a `.mqx` file gives back: the bones and the morphs. -/
theorem mqx_back (hl : XmlLaws num fin ok) (doc : Document F) (h : DocWritable fin ok doc) :
    readMQX num (writeMQX num doc) =
      some (doc.bonePlugin.map fun p => (p.preSerialize doc.objects).kept, doc.morphPlugin) := by
  have hb : (writeMQX num doc).child "Plugin.56A31D20.71F282AB".toList =
      doc.bonePlugin.map fun p => encodeBonePlugin num (p.preSerialize doc.objects) := by
    show (List.filter _ ([_] ++ doc.bonePlugin.toList.map (fun p => encodeBonePlugin num (p.preSerialize doc.objects)) ++
      doc.morphPlugin.toList.map encodeMorphPlugin ++ doc.physicsPlugin.toList.map encodePhysicsPlugin)).getLast? = _
    rw [List.filter_append, List.filter_append, List.filter_append,
      all_map (fun p : BonePlugin F => encodeBonePlugin num (p.preSerialize doc.objects)) "Plugin.56A31D20.71F282AB".toList _ fun _ => rfl,
      none_map encodeMorphPlugin "Plugin.56A31D20.C452C6DB".toList _ _ (fun _ => rfl) (by decide),
      none_map encodePhysicsPlugin "Plugin.7A6E6962.43594850".toList _ _ (fun _ => rfl) (by decide), List.append_nil, List.append_nil]
    cases doc.bonePlugin <;> rfl
  have hm : (writeMQX num doc).child "Plugin.56A31D20.C452C6DB".toList = doc.morphPlugin.map encodeMorphPlugin := by
    show (List.filter _ ([_] ++ doc.bonePlugin.toList.map (fun p => encodeBonePlugin num (p.preSerialize doc.objects)) ++
      doc.morphPlugin.toList.map encodeMorphPlugin ++ doc.physicsPlugin.toList.map encodePhysicsPlugin)).getLast? = _
    rw [List.filter_append, List.filter_append, List.filter_append,
      none_map (fun p : BonePlugin F => encodeBonePlugin num (p.preSerialize doc.objects)) "Plugin.56A31D20.71F282AB".toList _ _ (fun _ => rfl)
        (by decide),
      all_map encodeMorphPlugin "Plugin.56A31D20.C452C6DB".toList _ fun _ => rfl,
      none_map encodePhysicsPlugin "Plugin.7A6E6962.43594850".toList _ _ (fun _ => rfl) (by decide), List.append_nil]
    cases doc.morphPlugin <;> rfl
  unfold readMQX
  have h0 : (writeMQX num doc).name = "MetasequoiaDocument".toList := rfl
  rw [if_pos h0, hb, hm]
  have h1 : decodeOpt (decodeBonePlugin num) (doc.bonePlugin.map fun p => encodeBonePlugin num (p.preSerialize doc.objects)) =
      some (doc.bonePlugin.map fun p => (p.preSerialize doc.objects).kept) := by
    cases e : doc.bonePlugin with
    | none => rfl
    | some p =>
      simp only [Option.map_some, decodeOpt]
      rw [bonePlugin_back hl _ (h.bone p e)]
      rfl
  have h2 : decodeOpt (decodeMorphPlugin num) (doc.morphPlugin.map encodeMorphPlugin) = some doc.morphPlugin := by
    cases e : doc.morphPlugin with
    | none => rfl
    | some l =>
      simp only [Option.map_some, decodeOpt]
      rw [morphPlugin_back hl l (h.morph l e)]
      rfl
  rw [h1, h2]
  rfl

/-! ### Files -/

/-- What a document keeps in its files: everything but the physics, the internal rotation offsets, the index of the weights
and the bones of the old format; the list of weighted objects is completed. -/
def Document.kept (doc : Document F) : Document F :=
  { doc with
    bonePlugin := doc.bonePlugin.map fun p => (p.preSerialize doc.objects).kept
    physicsPlugin := none }

theorem withPlugins_back (hl : XmlLaws num fin ok) (doc : Document F) (h : DocWritable fin ok doc) :
    withPlugins num doc.bare (some (.xml (writeMQX num doc))) = doc.kept := by
  unfold withPlugins
  simp only
  rw [mqx_back hl doc h]
  rfl

theorem kept_bare (doc : Document F) (h : doc.hasPlugins = false) : doc.bare = doc.kept := by
  obtain ⟨sc, ms, os, bp, mp, pp⟩ := doc
  simp only [Document.hasPlugins, Bool.or_eq_false_iff, Option.isSome_eq_false_iff, Option.isNone_iff_eq_none] at h
  obtain ⟨⟨rfl, rfl⟩, rfl⟩ := h
  rfl

omit [Zero F] in
theorem fixNames_plugins (doc doc' : Document F) (h : doc.fixNames = some doc') :
    doc'.hasPlugins = doc.hasPlugins ∧ doc'.bonePlugin = doc.bonePlugin ∧ doc'.morphPlugin = doc.morphPlugin := by
  unfold Document.fixNames at h
  cases h1 : fixNamesLoop [] (doc.objects.map Object.name) with
  | none => simp [h1] at h
  | some os =>
    cases h2 : fixNamesLoop [] (doc.materials.map Material.name) with
    | none => simp [h1, h2] at h
    | some ms =>
      simp [h1, h2] at h
      subst h
      exact ⟨rfl, rfl, rfl⟩

omit [Zero F] in
theorem takeWhile_all {α : Type} (p : α → Bool) (l : List α) (h : ∀ a ∈ l, p a = true) : l.takeWhile p = l := by
  induction l with
  | nil => rfl
  | cons a l ih => rw [List.takeWhile_cons, if_pos (h a (by simp)), ih fun b hb => h b (by simp [hb])]

omit [Zero F] in
theorem takeWhile_append_all {α : Type} (p : α → Bool) (l r : List α) (h : ∀ a ∈ l, p a = true) :
    (l ++ r).takeWhile p = l ++ r.takeWhile p := by
  induction l with
  | nil => rfl
  | cons a l ih =>
    rw [List.cons_append, List.takeWhile_cons, if_pos (h a (by simp)), ih fun b hb => h b (by simp [hb]), List.cons_append]

omit [Zero F] in
theorem mqxName_suffix (path : Str) : ∃ a, mqxName path = a ++ ".mqx".toList := by
  unfold mqxName baseName
  rw [List.reverse_append, takeWhile_append_all _ _ _ (by decide), List.reverse_append, List.reverse_reverse]
  exact ⟨_, rfl⟩

/-- C170: a document saved as `.mqo` and loaded again is the document with its names made unique, without physics. The path
must not end in `.mqx`, because the plugins are then written to the same file. -/
theorem save_load_partial (hl : XmlLaws num fin ok) (path : Str) (doc doc' : Document F) (fs fs' : Str → Option (FileData F))
    (hz : ¬ ".mqoz".toList <:+ path) (hx : ¬ ".mqx".toList <:+ path)
    (hn : doc.fixNames = some doc') (h : DocWritable fin ok doc') (hs : saveMQO num path doc fs = some fs') :
    loadMQO num path fs' = some doc'.kept := by
  have hz' : ¬ (".mqoz".toList).isSuffixOf path = true := by rwa [List.isSuffixOf_iff_suffix]
  have hx' : sibling path (mqxName path) ≠ path := by
    intro e
    obtain ⟨a, ha⟩ := mqxName_suffix path
    apply hx
    rw [← e, sibling, ha, ← List.append_assoc]
    exact List.suffix_append _ _
  unfold saveMQO at hs
  rw [if_neg hz', hn] at hs
  simp only [Option.some.injEq] at hs
  unfold loadMQO
  rw [if_neg hz']
  by_cases hp : doc'.hasPlugins = true
  · rw [if_pos hp] at hs
    have h1 : fs' path = some (.text doc'.bare (some (mqxName path))) := by
      rw [← hs, Function.update_of_ne (Ne.symm hx'), Function.update_self, includeOf, if_pos hp]
    have h2 : fs' (sibling path (mqxName path)) = some (.xml (writeMQX num doc')) := by rw [← hs, Function.update_self]
    rw [h1]
    simp only [Option.bind_some]
    rw [h2, withPlugins_back hl doc' h]
  · rw [if_neg hp] at hs
    have h1 : fs' path = some (.text doc'.bare none) := by
      rw [← hs, Function.update_self, includeOf, if_neg hp]
    rw [h1]
    simp only [Option.bind_none]
    rw [← kept_bare doc' (by simpa using hp)]
    rfl

/-- C170: a document saved as `.mqoz` and loaded again is the document without physics; its names are not changed, so objects
that share a name still do (compare `save_load_partial`). -/
theorem save_load_mqoz_partial (hl : XmlLaws num fin ok) (path : Str) (doc : Document F) (fs : Str → Option (FileData F))
    (hz : ".mqoz".toList <:+ path) (h : DocWritable fin ok doc) :
    ∃ fs', saveMQO num path doc fs = some fs' ∧ loadMQO num path fs' = some doc.kept := by
  have hz' : (".mqoz".toList).isSuffixOf path = true := by rwa [List.isSuffixOf_iff_suffix]
  unfold saveMQO
  rw [if_pos hz']
  refine ⟨_, rfl, ?_⟩
  unfold loadMQO
  rw [if_pos hz', Function.update_self]
  simp only [List.cons_append, List.nil_append]
  have hf : (".mqo".toList).isSuffixOf (stem (baseName path) ++ ".mqo".toList) = true := by
    rw [List.isSuffixOf_iff_suffix]
    exact List.suffix_append _ _
  rw [List.find?_cons_of_pos (by simpa using hf)]
  simp only
  by_cases hp : doc.hasPlugins = true
  · rw [if_pos hp, includeOf, if_pos hp]
    simp only [Option.bind_some]
    have hne : mqxName path ≠ stem (baseName path) ++ ".mqo".toList := by
      obtain ⟨a, ha⟩ := mqxName_suffix path
      rw [ha]
      intro e
      have := List.append_inj_right' e rfl
      exact absurd this (by decide)
    have hne' : (mqxName path == stem (baseName path) ++ ".mqo".toList) = false := by simpa using hne
    rw [List.lookup_cons, hne', List.lookup_cons_self, withPlugins_back hl doc h]
  · rw [if_neg hp, includeOf, if_neg hp]
    simp only [Option.bind_none]
    rw [← kept_bare doc (by simpa using hp)]
    rfl

omit [Zero F] in
theorem baseName_dir (dir name : Str) (hd : dir = [] ∨ dir.getLast? = some '/') (hn : '/' ∉ name) :
    baseName (dir ++ name) = name := by
  unfold baseName
  have hl : ∀ a ∈ name.reverse, (decide (a ≠ '/')) = true := by
    intro a ha
    simp only [List.mem_reverse] at ha
    simp only [ne_eq, decide_eq_true_eq]
    rintro rfl
    exact hn ha
  rw [List.reverse_append]
  rcases hd with rfl | hd
  · rw [List.reverse_nil, List.append_nil, takeWhile_all _ _ hl, List.reverse_reverse]
  · rw [takeWhile_append_all _ _ _ hl]
    have : dir.reverse.takeWhile (fun a => decide (a ≠ '/')) = [] := by
      cases hr : dir.reverse with
      | nil => rfl
      | cons a l =>
        have : dir.getLast? = some a := by rw [List.getLast?_eq_head?_reverse, hr]; rfl
        rw [hd, Option.some.injEq] at this
        subst this
        rfl
    rw [this, List.append_nil, List.reverse_reverse]

omit [Zero F] in
theorem stem_ext (s e : Str) (he : e = ".mqo".toList ∨ e = ".mqoz".toList) : stem (s ++ e) = s := by
  have hext : Verif.Cmd.ext (s ++ e) = e := by
    unfold Verif.Cmd.ext
    rw [List.reverse_append]
    rcases he with rfl | rfl <;> rfl
  unfold stem
  rw [hext, List.length_append, Nat.add_sub_cancel, List.take_left]

omit [Zero F] in
/-- The name of the `.mqx` file of `name.mqo` or `name.mqoz`, in whatever directory. -/
theorem mqxName_mqo (dir name e : Str) (hd : dir = [] ∨ dir.getLast? = some '/') (hn : '/' ∉ name)
    (he : e = ".mqo".toList ∨ e = ".mqoz".toList) :
    mqxName (dir ++ name ++ e) = name ++ ".mqx".toList ∧
      sibling (dir ++ name ++ e) (name ++ ".mqx".toList) = dir ++ name ++ ".mqx".toList := by
  have hx : ∀ x : Str, '/' ∉ x → '/' ∉ name ++ x := fun x hx h => (List.mem_append.1 h).elim hn hx
  have he' : '/' ∉ e := by rcases he with rfl | rfl <;> decide
  refine ⟨?_, ?_⟩
  · unfold mqxName
    rw [stem_ext _ _ he, List.append_assoc, baseName_dir dir _ hd (hx _ (by decide))]
  · unfold sibling
    have h1 : baseName (dir ++ name ++ e) = name ++ e := by rw [List.append_assoc, baseName_dir dir _ hd (hx _ he')]
    have h2 : (dir ++ name ++ e).length - (name ++ e).length = dir.length := by
      simp only [List.length_append]
      omega
    rw [h1, h2, List.append_assoc, List.take_left, List.append_assoc]

/-- C170: saving `name.mqoz` writes that file only: an archive with `name.mqo` and, for a document with plugins, `name.mqx`,
which is the file the text names. -/
theorem saved_archive (dir name : Str) (hd : dir = [] ∨ dir.getLast? = some '/') (hn : '/' ∉ name) (doc : Document F)
    (fs fs' : Str → Option (FileData F)) (h : saveMQO num (dir ++ name ++ ".mqoz".toList) doc fs = some fs') :
    (∀ p, p ≠ dir ++ name ++ ".mqoz".toList → fs' p = fs p) ∧
    (doc.bonePlugin = none → doc.morphPlugin = none → doc.physicsPlugin = none →
      ∃ d, fs' (dir ++ name ++ ".mqoz".toList) = some (.zip [(name ++ ".mqo".toList, .text d none)])) ∧
    (doc.bonePlugin ≠ none ∨ doc.morphPlugin ≠ none ∨ doc.physicsPlugin ≠ none →
      ∃ d x, fs' (dir ++ name ++ ".mqoz".toList) = some (.zip [(name ++ ".mqo".toList, .text d (some (name ++ ".mqx".toList))),
        (name ++ ".mqx".toList, .xml x)])) := by
  obtain ⟨hm, _⟩ := mqxName_mqo dir name ".mqoz".toList hd hn (Or.inr rfl)
  have hz : (".mqoz".toList).isSuffixOf (dir ++ name ++ ".mqoz".toList) = true := by
    rw [List.isSuffixOf_iff_suffix]
    exact List.suffix_append _ _
  have hb : stem (baseName (dir ++ name ++ ".mqoz".toList)) = name := by
    rw [List.append_assoc, baseName_dir dir _ hd fun h => (List.mem_append.1 h).elim hn (by decide),
      stem_ext _ _ (Or.inr rfl)]
  unfold saveMQO at h
  rw [if_pos hz, hb, includeOf, hm, Option.some.injEq] at h
  subst h
  refine ⟨fun p hp => Function.update_of_ne hp _ _, ?_, ?_⟩
  · intro h1 h2 h3
    have : doc.hasPlugins = false := by simp [Document.hasPlugins, h1, h2, h3]
    rw [this, Function.update_self]
    exact ⟨_, rfl⟩
  · intro h1
    have : doc.hasPlugins = true := by
      unfold Document.hasPlugins
      simp only [Bool.or_eq_true, Option.isSome_iff_ne_none, or_assoc]
      exact h1
    rw [this, Function.update_self]
    exact ⟨_, _, rfl⟩

/-- C170: saving `name.mqo` writes that file and, for a document with plugins, `name.mqx` beside it, which is the file the text
names; nothing else is touched. -/
theorem saved_files (dir name : Str) (hd : dir = [] ∨ dir.getLast? = some '/') (hn : '/' ∉ name) (doc : Document F)
    (fs fs' : Str → Option (FileData F)) (h : saveMQO num (dir ++ name ++ ".mqo".toList) doc fs = some fs') :
    (∀ p, p ≠ dir ++ name ++ ".mqo".toList → p ≠ dir ++ name ++ ".mqx".toList → fs' p = fs p) ∧
    (doc.bonePlugin = none → doc.morphPlugin = none → doc.physicsPlugin = none →
      (∃ d, fs' (dir ++ name ++ ".mqo".toList) = some (.text d none)) ∧
      fs' (dir ++ name ++ ".mqx".toList) = fs (dir ++ name ++ ".mqx".toList)) ∧
    (doc.bonePlugin ≠ none ∨ doc.morphPlugin ≠ none ∨ doc.physicsPlugin ≠ none →
      (∃ d, fs' (dir ++ name ++ ".mqo".toList) = some (.text d (some (name ++ ".mqx".toList)))) ∧
      ∃ x, fs' (dir ++ name ++ ".mqx".toList) = some (.xml x)) := by
  obtain ⟨hm, hsib⟩ := mqxName_mqo dir name ".mqo".toList hd hn (Or.inl rfl)
  have hz : ¬ (".mqoz".toList).isSuffixOf (dir ++ name ++ ".mqo".toList) = true := by
    rw [List.isSuffixOf_iff_suffix]
    rintro ⟨a, ha⟩
    have h1 := congrArg List.reverse ha
    simp only [List.reverse_append] at h1
    have h2 : 'z' = 'o' := (List.cons.inj h1).1
    exact absurd h2 (by decide)
  have hne : dir ++ name ++ ".mqo".toList ≠ dir ++ name ++ ".mqx".toList := by
    intro e
    have := List.append_cancel_left e
    exact absurd this (by decide)
  unfold saveMQO at h
  rw [if_neg hz] at h
  cases hfix : doc.fixNames with
  | none => rw [hfix] at h; cases h
  | some doc' =>
    rw [hfix] at h
    simp only [Option.some.injEq] at h
    have hp := fixNames_plugins doc doc' hfix
    have hplug := hp.1
    rw [hm, hsib, hplug] at h
    rw [includeOf, hplug, hm] at h
    subst h
    refine ⟨?_, ?_, ?_⟩
    · intro p h1 h2
      split
      · rw [Function.update_of_ne h2, Function.update_of_ne h1]
      · rw [Function.update_of_ne h1]
    · intro h1 h2 h3
      have : doc.hasPlugins = false := by simp [Document.hasPlugins, h1, h2, h3]
      rw [this]
      simp only [Bool.false_eq_true, if_false]
      exact ⟨⟨_, Function.update_self _ _ _⟩, Function.update_of_ne hne.symm _ _⟩
    · intro h1
      have : doc.hasPlugins = true := by
        unfold Document.hasPlugins
        simp only [Bool.or_eq_true, Option.isSome_iff_ne_none, or_assoc]
        exact h1
      rw [this]
      simp only [if_true]
      exact ⟨⟨_, by rw [Function.update_of_ne hne, Function.update_self]⟩, _, Function.update_self _ _ _⟩

/-- C170, false: the rigid bodies and joints of a document are written but never read, whatever the file. -/
theorem physics_back_false (path : Str) (fs : Str → Option (FileData F)) (doc : Document F)
    (hf : ∀ d i, fs path = some (.text d i) → d.physicsPlugin = none)
    (hz : ¬ ".mqoz".toList <:+ path) (h : loadMQO num path fs = some doc) : doc.physicsPlugin = none := by
  have hz' : ¬ (".mqoz".toList).isSuffixOf path = true := by rwa [List.isSuffixOf_iff_suffix]
  unfold loadMQO at h
  rw [if_neg hz'] at h
  cases e : fs path with
  | none => simp [e] at h
  | some f =>
    cases f with
    | text d i =>
      simp only [e, Option.some.injEq] at h
      rw [← h]
      unfold withPlugins
      split
      · split
        · exact hf d i e
        · exact hf d i e
      · exact hf d i e
    | xml x => simp [e] at h
    | zip es => simp [e] at h

/-- C170, false: a `.mqx` file that is missing or that cannot be read is not an error: the document comes without bones and
morphs. -/
theorem missing_mqx_false (path : Str) (fs : Str → Option (FileData F)) (doc : Document F) (n : Str)
    (hz : ¬ ".mqoz".toList <:+ path) (hf : fs path = some (.text doc.bare (some n)))
    (hm : fs (sibling path n) = none ∨ ∃ x, fs (sibling path n) = some (.xml x) ∧ readMQX num x = none) :
    loadMQO num path fs = some doc.bare := by
  have hz' : ¬ (".mqoz".toList).isSuffixOf path = true := by rwa [List.isSuffixOf_iff_suffix]
  unfold loadMQO
  rw [if_neg hz', hf]
  simp only [Option.bind_some]
  obtain hm | ⟨x, hm, hx⟩ := hm
  · rw [hm]; rfl
  · rw [hm, withPlugins, hx]

end

/-- C170, false: a weight added to a bone that was loaded opens a new group, even when the bone has weights of the same
object, because the index of the groups is not rebuilt. -/
theorem loaded_weight_false [Zero F] (b : Bone F) (o v : Int) (w : F) :
    (b.kept.setVertexWeight o v w).weights = b.weights ++ [⟨o, [⟨v, w⟩]⟩] := rfl

/-- C170, false: saving a loaded document lists its weighted objects once more. -/
theorem resaved_objects_false [Zero F] (p : BonePlugin F) (os : List (Object F)) (h : p.boneSet = []) :
    ((p.preSerialize os).kept.preSerialize os).obj = p.obj ++ p.objIDs os ++ p.objIDs os := by
  have hw : ((p.preSerialize os).kept).weightedObjects = p.weightedObjects := by
    unfold BonePlugin.weightedObjects BonePlugin.kept BonePlugin.preSerialize
    simp only [h, List.flatMap_map]
    rfl
  have : ((p.preSerialize os).kept).objIDs os = p.objIDs os := by
    unfold BonePlugin.objIDs
    rw [hw]
  rw [BonePlugin.preSerialize]
  simp only
  rw [this]
  rfl

/-! ### Examples -/

/-- Reading an integer. -/
def readInteger : Str → Int
  | '-' :: t => -(atoi t : Int)
  | t => (atoi t : Int)

theorem readInteger_show (i : Int) (h : i.natAbs ≤ maxInt) : readInteger (showInt i) = i := by
  unfold showInt
  by_cases hi : i < 0
  · rw [if_pos hi, readInteger, atoi_showNat _ h]
    omega
  · rw [if_neg hi]
    have hn : i.toNat ≤ maxInt := by omega
    have : readInteger (showNat i.toNat) = (atoi (showNat i.toNat) : Int) := by
      cases e : showNat i.toNat with
      | nil => rfl
      | cons c t =>
        have hc : c.isDigit = true := showNat_digits i.toNat c (by rw [e]; simp)
        have : c ≠ '-' := by rintro rfl; exact absurd hc (by decide)
        unfold readInteger
        split
        · rename_i h'
          simp only [List.cons.injEq] at h'
          exact absurd h'.1 this
        · rfl
    rw [this, atoi_showNat _ hn]
    omega

/-- Whole numbers as the numbers of a document. -/
def intXml : XmlNum Int where
  showV := showInt
  readV := fun s => some (readInteger s)
  showG := showInt
  readG := fun s => some (readInteger s)
  readI := fun s => some (readInteger s)

/-- The facts on numbers hold of whole numbers. -/
theorem intXml_laws : XmlLaws intXml (fun x => x.natAbs ≤ maxInt) (fun x => x.natAbs ≤ maxInt) where
  v := fun x h => congrArg some (readInteger_show x h)
  comma := by
    intro x _ hm
    have hd : ∀ n, ',' ∉ showNat n := fun n hn => absurd (showNat_digits n ',' hn) (by decide)
    change ',' ∈ showInt x at hm
    unfold showInt at hm
    split at hm
    · simp only [List.mem_cons] at hm
      obtain hm | hm := hm
      · exact absurd hm (by decide)
      · exact hd _ hm
    · exact hd _ hm
  g := fun x h => ⟨showInt_ne x, congrArg some (readInteger_show x h)⟩
  i := fun x h => congrArg some (readInteger_show x h)

/-- A bone with weights, an IK chain and a rotation offset. -/
def fileBone : Bone Int where
  id := 4
  name := "arm".toList
  group := 0
  parent := 2
  pos := ⟨-3, 0, 12⟩
  movable := 1
  hide := 0
  dummy := 0
  color := "ff0000".toList
  upVector := none
  rotate := some ⟨1, -2, 3⟩
  ik := some ⟨2, "ik".toList, "tip".toList⟩
  weights := [⟨1, [⟨5, 100⟩, ⟨6, 50⟩]⟩, ⟨2, [⟨0, 7⟩]⟩]
  weightMap := [(2, 1), (1, 0)]
  rotationOffset := ⟨0, 90, 0⟩

/-- Two objects of the same name, bones, morphs and physics. -/
def fileDocument : Document Int where
  scene := none
  materials := []
  objects := [{ newObject 59 "body".toList with uid := 1 }, { newObject 59 "body".toList with uid := 2 }]
  bonePlugin := some ⟨[], [], [fileBone], []⟩
  morphPlugin := some [⟨"body".toList, [⟨"smile".toList, 0⟩]⟩]
  physicsPlugin := some ⟨[], []⟩

/-- The document with unique names. -/
def fileDocument' : Document Int := { fileDocument with
  objects := [{ newObject 59 "body".toList with uid := 1 }, { newObject 59 "body_2".toList with uid := 2 }] }

theorem fileBone_writable : BoneWritable (fun x : Int => x.natAbs ≤ maxInt) (fun x => x.natAbs ≤ maxInt) fileBone where
  id := by decide
  group := by decide
  parent := by decide
  pos := by decide
  movable := by decide
  hide := by decide
  dummy := by decide
  up := by simp [fileBone]
  rotate := by
    intro v hv
    simp only [fileBone, Option.some.injEq] at hv
    subst hv; decide
  ik := by
    intro v hv
    simp only [fileBone, Option.some.injEq] at hv
    subst hv; decide
  weights := by decide

theorem fileDocument_writable (doc : Document Int) (h : doc = fileDocument ∨ doc = fileDocument') :
    DocWritable (fun x : Int => x.natAbs ≤ maxInt) (fun x => x.natAbs ≤ maxInt) doc where
  bone := by
    intro p hp
    obtain rfl | rfl := h <;>
    · simp only [fileDocument, fileDocument', Option.some.injEq] at hp
      subst hp
      refine ⟨fun b hb => ?_, by decide +kernel⟩
      have : b = fileBone := by simpa [BonePlugin.preSerialize] using hb
      rw [this]
      exact fileBone_writable
  morph := by
    intro l hl
    obtain rfl | rfl := h <;>
    · simp only [fileDocument, fileDocument', Option.some.injEq] at hl
      subst hl
      decide

example : fileDocument.fixNames = some fileDocument' := by decide +kernel

example : ∃ fs', saveMQO intXml "dir/a.mqo".toList fileDocument (fun _ => none) = some fs' ∧
    loadMQO intXml "dir/a.mqo".toList fs' = some fileDocument'.kept := by
  have hn : fileDocument.fixNames = some fileDocument' := by decide +kernel
  have hs : ∃ fs', saveMQO intXml "dir/a.mqo".toList fileDocument (fun _ => none) = some fs' := by
    unfold saveMQO
    rw [if_neg (by decide), hn]
    exact ⟨_, rfl⟩
  obtain ⟨fs', hs⟩ := hs
  exact ⟨fs', hs, save_load_partial intXml_laws _ _ _ _ _ (by decide) (by decide) hn (fileDocument_writable _ (Or.inr rfl)) hs⟩

example : ∃ fs', saveMQO intXml "dir/a.mqoz".toList fileDocument (fun _ => none) = some fs' ∧
    loadMQO intXml "dir/a.mqoz".toList fs' = some fileDocument.kept :=
  save_load_mqoz_partial intXml_laws _ _ _ (by decide) (fileDocument_writable _ (Or.inl rfl))

/-- Objects that share a name still do in a `.mqoz` file, and the weights are there. -/
example : fileDocument.kept.objects.map Object.name = ["body".toList, "body".toList] ∧
    fileDocument.kept.bonePlugin.map (fun p => p.bones.map Bone.weights) = some [[⟨1, [⟨5, 100⟩, ⟨6, 50⟩]⟩, ⟨2, [⟨0, 7⟩]⟩]] ∧
    fileDocument.kept.bonePlugin.map BonePlugin.obj = some [1, 2] ∧ fileDocument.kept.physicsPlugin = none ∧
    fileDocument.physicsPlugin ≠ none := by decide +kernel

/-- The files of a document with plugins. -/
example : ∃ fs', saveMQO intXml ("dir/".toList ++ "a".toList ++ ".mqo".toList) fileDocument (fun _ => none) = some fs' ∧
    (fs' "dir/a.mqx".toList).isSome = true ∧ fs' "dir/b.mqx".toList = none ∧ fileDocument.bonePlugin ≠ none := by
  have hn : fileDocument.fixNames = some fileDocument' := by decide +kernel
  unfold saveMQO
  rw [if_neg (by decide), hn]
  exact ⟨_, rfl, by decide +kernel, by decide +kernel, by decide +kernel⟩

example : mqxName "dir/a.mqo".toList = "a.mqx".toList ∧ sibling "dir/a.mqo".toList "a.mqx".toList = "dir/a.mqx".toList := by decide

/-- A document whose `.mqx` file is missing. -/
example : loadMQO intXml "a.mqo".toList (Function.update (fun _ => none) "a.mqo".toList
    (some (.text fileDocument.bare (some "a.mqx".toList)))) = some fileDocument.bare :=
  missing_mqx_false _ _ _ "a.mqx".toList (by decide) (Function.update_self ..)
    (Or.inl (by rw [Function.update_of_ne (by decide)]))

/-- A document with physics, saved and loaded. -/
example (fs' : Str → Option (FileData Int)) (doc : Document Int)
    (hs : saveMQO intXml "a.mqo".toList fileDocument (fun _ => none) = some fs')
    (h : loadMQO intXml "a.mqo".toList fs' = some doc) : doc.physicsPlugin = none := by
  have hn : fileDocument.fixNames = some fileDocument' := by decide +kernel
  have := save_load_partial intXml_laws _ _ _ _ _ (by decide) (by decide) hn (fileDocument_writable _ (Or.inr rfl)) hs
  rw [this] at h
  rw [← Option.some.inj h]
  rfl

/-- The bone has weights of object 1 in two groups after a further weight. -/
example : (fileBone.kept.setVertexWeight 1 9 10).weights.map WeightGroup.objectID = [1, 2, 1] ∧
    (fileBone.setVertexWeight 1 9 10).weights.map WeightGroup.objectID = [1, 2] := by decide

example (p : BonePlugin Int) (hp : fileDocument.bonePlugin = some p) : p.boneSet = [] ∧
    ((p.preSerialize fileDocument.objects).kept.preSerialize fileDocument.objects).obj = [1, 2, 1, 2] := by
  simp only [fileDocument, Option.some.injEq] at hp
  subst hp
  decide +kernel

end Verif.Mqo
