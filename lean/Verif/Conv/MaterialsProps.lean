import Verif.Conv.Materials
import Verif.Mqo.MorphProps
import Verif.Fbx.DocumentProps
import Verif.Mmd.BytesLemmas
import Mathlib.Tactic.Ring
import Mathlib.Tactic.NormNum
import Mathlib.Algebra.Field.Rat
import Mathlib.Data.List.Nodup
import Mathlib.Data.List.Induction

/-! Theorems about the conversion of materials (C163, C164, C165). -/

namespace Verif.Conv

open Verif.Geom
open Verif.Mqo (Str Material Ex2 Param morphPrefix)

variable {F : Type}

/-! ### C163: materials between MMD and MQO -/

section
variable [Field F] [FloatOps F]

/-- C163: a material of an MMD model keeps its name, color, power, texture and sides. -/
theorem mmd_material_values (textures : List Str) (m : MmdMat F) (r : Material F)
    (h : mmdMaterial textures m = some r) :
    r.name = m.name ∧ r.color = m.color ∧ r.power = m.specularity ∧ (r.doubleSided = true ↔ m.flags % 2 = 1) ∧
      (m.textureID < 0 → r.texture = []) ∧
      (0 ≤ m.textureID → textures[m.textureID.toNat]? = some r.texture) := by
  unfold mmdMaterial at h
  rw [Option.map_eq_some_iff] at h
  obtain ⟨t, h1, rfl⟩ := h
  unfold mmdTexture at h1
  refine ⟨rfl, rfl, rfl, ?_, ?_, ?_⟩
  · simp
  · intro hn
    rw [if_neg (by omega)] at h1
    exact (Option.some.inj h1).symm
  · intro hn
    rw [if_pos hn] at h1
    exact h1

/-- C163 does not hold for wrong texture numbers: the program stops exactly if a material names a texture that does
not exist. -/
theorem mmd_texture_false (textures : List Str) (ms : List (MmdMat F)) :
    mmdMaterialList textures ms = none ↔ ∃ m ∈ ms, (textures.length : Int) ≤ m.textureID := by
  have one : ∀ m : MmdMat F, mmdMaterial textures m = none ↔ (textures.length : Int) ≤ m.textureID := by
    intro m
    unfold mmdMaterial mmdTexture
    rw [Option.map_eq_none_iff]
    split
    · rw [List.getElem?_eq_none_iff]
      omega
    · simp
      omega
  unfold mmdMaterialList
  induction ms with
  | nil => simp
  | cons m ms ih =>
    rw [List.mapM_cons]
    cases h1 : mmdMaterial textures m with
    | none =>
      simp only [Option.bind_eq_bind, Option.bind_none, true_iff]
      exact ⟨m, by simp, (one m).mp h1⟩
    | some r =>
      have hm : ¬ (textures.length : Int) ≤ m.textureID := by rw [← one m, h1]; simp
      simp only [Option.bind_eq_bind, Option.bind_some, List.mem_cons, exists_eq_or_imp, hm, false_or]
      refine Iff.trans ?_ ih
      cases List.mapM (mmdMaterial textures) ms <;> simp

omit [FloatOps F] in
theorem mqoMaterials_spec (ms : List (Material F × Nat)) : ∀ textures,
    (∃ more, (mqoMaterials ms textures).1 = textures ++ more) ∧ (mqoMaterials ms textures).2.length = ms.length ∧
    ∀ (i : Nat) m n, ms[i]? = some (m, n) → ∃ r, (mqoMaterials ms textures).2[i]? = some r ∧
      r = mqoMaterial m n r.textureID ∧
      (m.texture = [] → r.textureID = -1) ∧
      (m.texture ≠ [] → 0 ≤ r.textureID ∧ (mqoMaterials ms textures).1[r.textureID.toNat]? = some m.texture) := by
  induction ms with
  | nil => intro textures; simp [mqoMaterials]
  | cons x ms ih =>
    intro textures
    obtain ⟨m, n⟩ := x
    unfold mqoMaterials
    by_cases ht : m.texture = []
    · rw [if_pos ht]
      obtain ⟨h1, h2, h3⟩ := ih textures
      refine ⟨h1, by simp [h2], ?_⟩
      intro i m' n' hi
      cases i with
      | zero =>
        simp only [List.getElem?_cons_zero, Option.some.injEq, Prod.mk.injEq] at hi
        obtain ⟨rfl, rfl⟩ := hi
        exact ⟨_, rfl, rfl, fun _ => rfl, fun h => absurd ht h⟩
      | succ i => exact h3 i m' n' (by simpa using hi)
    · rw [if_neg ht]
      obtain ⟨⟨more, h1⟩, h2, h3⟩ := ih (textures ++ [m.texture])
      refine ⟨⟨m.texture :: more, by simp [h1]⟩, by simp [h2], ?_⟩
      intro i m' n' hi
      cases i with
      | zero =>
        simp only [List.getElem?_cons_zero, Option.some.injEq, Prod.mk.injEq] at hi
        obtain ⟨rfl, rfl⟩ := hi
        refine ⟨_, rfl, rfl, fun h => absurd h ht, fun _ => ⟨by simp [mqoMaterial], ?_⟩⟩
        simp [mqoMaterial, h1]
      | succ i => exact h3 i m' n' (by simpa using hi)

omit [FloatOps F] in
/-- C163: a material of an MQO document keeps its name, color, power and the name of its texture in the MMD model; its
count is that of the corners of its triangles and it has no toon texture. -/
theorem mqo_material_values (ms : List (Material F × Nat)) (i : Nat) (m : Material F) (n : Nat)
    (h : ms[i]? = some (m, n)) :
    ∃ r, (mqoMaterials ms []).2[i]? = some r ∧ r.name = m.name ∧ r.color = m.color ∧ r.specularity = m.power ∧
      r.count = 3 * n ∧ r.toonType = 0 ∧ r.toon = -1 ∧ (m.texture = [] → r.textureID = -1) ∧
      (m.texture ≠ [] → 0 ≤ r.textureID ∧ (mqoMaterials ms []).1[r.textureID.toNat]? = some m.texture) := by
  obtain ⟨_, _, h3⟩ := mqoMaterials_spec ms []
  obtain ⟨r, h4, h5, h6, h7⟩ := h3 i m n h
  refine ⟨r, h4, ?_, ?_, ?_, ?_, ?_, ?_, h6, h7⟩ <;> rw [h5]
  · rfl
  · rfl
  · rfl
  · simp [mqoMaterial, mul_comm]
  · rfl
  · rfl

/-- C163: exporting materials to MMD and importing them again never stops the program and keeps number, order, names,
colors, power and textures. -/
theorem material_round_trip (ms : List (Material F × Nat)) :
    ∃ l, mmdMaterialList (mqoMaterials ms []).1 (mqoMaterials ms []).2 = some l ∧
      l.map (fun r => (r.name, r.color, r.power, r.texture)) =
        ms.map fun m => (m.1.name, m.1.color, m.1.power, m.1.texture) := by
  obtain ⟨_, hlen, hspec⟩ := mqoMaterials_spec ms []
  have hout : ∀ (i : Nat) r, (mqoMaterials ms []).2[i]? = some r → ∃ m n, ms[i]? = some (m, n) ∧
      mmdMaterial (mqoMaterials ms []).1 r ≠ none := by
    intro i r hr
    have hi : i < ms.length := by rw [← hlen]; exact (List.getElem?_eq_some_iff.mp hr).1
    obtain ⟨r', h4, h5, h6, h7⟩ := hspec i ms[i].1 ms[i].2 (by simp)
    rw [hr] at h4
    cases h4
    refine ⟨_, _, List.getElem?_eq_getElem hi, ?_⟩
    unfold mmdMaterial mmdTexture
    rw [ne_eq, Option.map_eq_none_iff]
    by_cases ht : ms[i].1.texture = []
    · rw [h6 ht]; simp
    · rw [if_pos (h7 ht).1, (h7 ht).2]; simp
  cases hl : mmdMaterialList (mqoMaterials ms []).1 (mqoMaterials ms []).2 with
  | none =>
    rw [mmd_texture_false] at hl
    obtain ⟨r, hr, hb⟩ := hl
    obtain ⟨i, hi⟩ := List.mem_iff_getElem?.mp hr
    obtain ⟨_, _, _, hn⟩ := hout i r hi
    refine absurd ?_ hn
    have := (mmd_texture_false (mqoMaterials ms []).1 [r]).mpr ⟨r, by simp, hb⟩
    unfold mmdMaterialList at this
    rw [List.mapM_cons] at this
    cases hx : mmdMaterial (mqoMaterials ms []).1 r with
    | none => rfl
    | some y => rw [hx] at this; simp at this
  | some l =>
    refine ⟨l, rfl, ?_⟩
    have hm : ∀ (rs : List (MmdMat F)) (l : List (Material F)), rs.mapM (mmdMaterial (mqoMaterials ms []).1) = some l →
        l.length = rs.length ∧ ∀ (i : Nat) (r : MmdMat F), rs[i]? = some r → l[i]? = mmdMaterial (mqoMaterials ms []).1 r := by
      intro rs
      induction rs with
      | nil =>
        intro l h
        simp only [List.mapM_nil, Option.pure_def, Option.some.injEq] at h
        subst h
        simp
      | cons r rs ih =>
        intro l h
        rw [List.mapM_cons] at h
        cases h1 : mmdMaterial (mqoMaterials ms []).1 r with
        | none => rw [h1] at h; simp at h
        | some y =>
          rw [h1] at h
          cases h2 : rs.mapM (mmdMaterial (mqoMaterials ms []).1) with
          | none => rw [h2] at h; simp at h
          | some l' =>
            rw [h2] at h
            simp only [Option.bind_eq_bind, Option.bind_some, Option.pure_def, Option.some.injEq] at h
            subst h
            obtain ⟨e1, e2⟩ := ih l' h2
            refine ⟨by simp [e1], ?_⟩
            intro i r' hi
            cases i with
            | zero =>
              simp only [List.getElem?_cons_zero, Option.some.injEq] at hi ⊢
              subst hi
              exact h1.symm
            | succ i => exact e2 i r' (by simpa using hi)
    obtain ⟨e1, e2⟩ := hm _ l hl
    apply List.ext_getElem?
    intro i
    rw [List.getElem?_map, List.getElem?_map]
    by_cases hi : i < ms.length
    · obtain ⟨r, h4, h5, h6, h7⟩ := hspec i ms[i].1 ms[i].2 (by simp)
      have e3 := e2 i r h4
      have hil : i < l.length := by rw [e1, hlen]; exact hi
      rw [List.getElem?_eq_getElem hil] at e3 ⊢
      rw [List.getElem?_eq_getElem hi]
      simp only [Option.map_some, Option.some.injEq, Prod.mk.injEq]
      obtain ⟨v1, v2, v3, _, v5, v6⟩ := mmd_material_values _ r l[i] e3.symm
      refine ⟨v1.trans (by rw [h5]; rfl), v2.trans (by rw [h5]; rfl), v3.trans (by rw [h5]; rfl), ?_⟩
      by_cases ht : ms[i].1.texture = []
      · rw [v5 (by rw [h6 ht]; decide), ht]
      · have := v6 (h7 ht).1
        rw [(h7 ht).2] at this
        exact (Option.some.inj this).symm
    · rw [List.getElem?_eq_none (l := ms) (by omega), List.getElem?_eq_none (l := l) (by rw [e1, hlen]; omega)]
      rfl

omit [FloatOps F] in
/-- C163 does not hold for the sides, the edge and the other colors: an exported MMD material never is double sided
and has no edge, specular and ambient color, whatever the MQO material is. -/
theorem double_sided_false (ms : List (Material F × Nat)) (r : MmdMat F) (h : r ∈ (mqoMaterials ms []).2) :
    r.flags = 0 ∧ r.edgeScale = 0 ∧ r.aColor = ⟨0, 0, 0⟩ ∧ r.specular = ⟨0, 0, 0⟩ := by
  obtain ⟨_, hlen, hspec⟩ := mqoMaterials_spec ms []
  obtain ⟨i, hi⟩ := List.mem_iff_getElem?.mp h
  have hl : i < ms.length := by rw [← hlen]; exact (List.getElem?_eq_some_iff.mp hi).1
  obtain ⟨r', h4, h5, _⟩ := hspec i ms[i].1 ms[i].2 (by simp)
  rw [hi] at h4
  cases h4
  rw [h5]
  exact ⟨rfl, rfl, rfl, rfl⟩

end

/-- C163: the shader of a converted material draws an edge exactly when the edge of the MMD material has a positive size. -/
theorem mmd_edge [Field F] [LinearOrder F] [FloatOps F] (hlt : ∀ a b : F, FloatOps.lt a b = decide (a < b))
    (textures : List Str) (m : MmdMat F) (r : Material F) (h : mmdMaterial textures m = some r) :
    ∃ e : Ex2 F, r.ex2 = some e ∧ e.shaderName = "pmd".toList ∧
      e.shaderParams.lookup "Edge".toList = some (.bool (decide (0 < m.edgeScale))) := by
  unfold mmdMaterial at h
  rw [Option.map_eq_some_iff] at h
  obtain ⟨t, -, rfl⟩ := h
  refine ⟨_, rfl, rfl, ?_⟩
  rw [List.lookup_cons_self, hlt]

/-- C163, false: whether the edge is drawn (bit 4 of the flags of a PMX material) does not matter: without it the converted
material has an edge all the same. -/
theorem edge_flag_false [Field F] [FloatOps F] (textures : List Str) (m : MmdMat F) (flags : Nat) (h : flags % 2 = m.flags % 2) :
    mmdMaterial textures { m with flags := flags } = mmdMaterial textures m := by
  unfold mmdMaterial
  simp only [h]

/-! ### C164: material morphs of MMD -/

section
variable [Field F]

theorem addMorph_append (name : Str) (base extra : List (Material F)) (o : MatOffset F)
    (ho : o.target < base.length) :
    addMorphMaterial name (base ++ extra) o = base ++ (extra ++
      ((if o.target < 0 then none else base[o.target.toNat]?).map (morphMaterial name o)).toList) := by
  unfold addMorphMaterial
  by_cases h : o.target < 0
  · rw [if_pos h, if_pos h]; simp
  · rw [if_neg h, if_neg h]
    have hl : o.target.toNat < base.length := by omega
    rw [List.getElem?_append_left hl, List.getElem?_eq_getElem hl]
    simp

/-- C164: the converted document has the materials as they are, and after them one for every offset of every morph (if
its target exists), in this order. -/
theorem morph_materials (base : List (Material F)) (morphs : List (MatMorph F))
    (h : ∀ mo ∈ morphs, ∀ o ∈ mo.offsets, o.target < base.length) :
    addMorphMaterials base morphs = base ++ morphs.flatMap fun mo => mo.offsets.flatMap fun o =>
      ((if o.target < 0 then none else base[o.target.toNat]?).map (morphMaterial mo.name o)).toList := by
  have inner : ∀ (name : Str) (os : List (MatOffset F)) (extra : List (Material F)),
      (∀ o ∈ os, o.target < base.length) →
      os.foldl (addMorphMaterial name) (base ++ extra) = base ++ (extra ++ os.flatMap fun o =>
        ((if o.target < 0 then none else base[o.target.toNat]?).map (morphMaterial name o)).toList) := by
    intro name os
    induction os with
    | nil => intro extra _; simp
    | cons o os ih =>
      intro extra ho
      rw [List.foldl_cons, addMorph_append name base extra o (ho o (by simp)), ih _ fun x hx => ho x (by simp [hx])]
      simp
  have outer : ∀ extra : List (Material F),
      morphs.foldl (fun ms mo => mo.offsets.foldl (addMorphMaterial mo.name) ms) (base ++ extra) =
        base ++ (extra ++ morphs.flatMap fun mo => mo.offsets.flatMap fun o =>
          ((if o.target < 0 then none else base[o.target.toNat]?).map (morphMaterial mo.name o)).toList) := by
    induction morphs with
    | nil => intro extra; simp
    | cons mo morphs ih =>
      intro extra
      rw [List.foldl_cons, inner mo.name mo.offsets extra (h mo (by simp)), ih fun m hm => h m (by simp [hm])]
      simp
  have := outer []
  simpa [addMorphMaterials] using this

theorem prefix_inj (a b x y : Str) (ha : ':' ∉ a) (hb : ':' ∉ b)
    (h : morphPrefix a ++ x = morphPrefix b ++ y) : a = b ∧ x = y := by
  have h1 : a ++ ':' :: x = b ++ ':' :: y := by simpa [morphPrefix] using h
  clear h
  induction a generalizing b with
  | nil =>
    cases b with
    | nil => simpa using h1
    | cons c b =>
      simp only [List.nil_append, List.cons_append, List.cons.injEq] at h1
      exact absurd h1.1 (fun e => hb (by simp [← e]))
  | cons c a ih =>
    cases b with
    | nil =>
      simp only [List.nil_append, List.cons_append, List.cons.injEq] at h1
      exact absurd h1.1 (fun e => ha (by simp [e]))
    | cons d b =>
      simp only [List.cons_append, List.cons.injEq] at h1
      obtain ⟨e1, e2⟩ := ih b (fun hx => ha (by simp [hx])) (fun hx => hb (by simp [hx])) h1.2
      exact ⟨by rw [h1.1, e1], e2⟩

/-- The name that morph materials begin with. -/
def morphMark : Str := "$MORPH:".toList

/-- C164 (partial): applying a material morph of a converted MMD model with weight `w` has the effect it has in MMD: an
offset that adds gives `c + w·d`, one that multiplies gives `c·(1 − w + w·d)`; materials without an offset keep their
color. Names are distinct, those of morphs have no colon, and those of materials do not begin with the mark; a morph has
at most one offset for a material. Missing: offsets for all materials, see `all_materials_false`. -/
theorem morph_effect_partial (base : List (Material F)) (morphs : List (MatMorph F)) (name : Str) (w : F)
    (hb : (base.map Material.name).Nodup) (hp : ∀ m ∈ base, ∀ x, m.name ≠ morphMark ++ x)
    (hc : ∀ mo ∈ morphs, ':' ∉ mo.name) (hcn : ':' ∉ name) (hmn : (morphs.map MatMorph.name).Nodup)
    (hd : ∀ mo ∈ morphs, (mo.offsets.map MatOffset.target).Nodup)
    (ht : ∀ mo ∈ morphs, ∀ o ∈ mo.offsets, 0 ≤ o.target ∧ o.target < base.length) :
    ∃ ms', Mqo.applyMaterialMorph (addMorphMaterials base morphs) name w = some ms' ∧
      ∀ (i : Nat) (m m' : Material F), base[i]? = some m → ms'[i]? = some m' →
        (∀ mo ∈ morphs, mo.name = name → ∀ o ∈ mo.offsets, o.target = i →
          (o.flags % 2 = 1 → m'.color = m.color.add (o.diffuse.scale w)) ∧
          (o.flags % 2 ≠ 1 → m'.color = ⟨m.color.x * (1 - w + w * o.diffuse.x), m.color.y * (1 - w + w * o.diffuse.y),
            m.color.z * (1 - w + w * o.diffuse.z), m.color.w * (1 - w + w * o.diffuse.w)⟩)) ∧
        ((∀ mo ∈ morphs, mo.name = name → ∀ o ∈ mo.offsets, o.target ≠ i) → m' = m) := by
  have hA := morph_materials base morphs fun mo h1 o h2 => (ht mo h1 o h2).2
  have hmark : ∀ n x : Str, ∃ y, morphPrefix n ++ x = morphMark ++ y := by
    intro n x
    exact ⟨n ++ ':' :: x, by simp [morphPrefix, morphMark]⟩
  -- the materials of the converted document
  have hmem : ∀ x, x ∈ addMorphMaterials base morphs ↔ x ∈ base ∨ ∃ mo ∈ morphs, ∃ o ∈ mo.offsets, ∃ m,
      base[o.target.toNat]? = some m ∧ x = morphMaterial mo.name o m := by
    intro x
    rw [hA, List.mem_append]
    refine or_congr Iff.rfl ?_
    rw [List.mem_flatMap]
    refine exists_congr fun mo => and_congr_right fun hmo => ?_
    rw [List.mem_flatMap]
    refine exists_congr fun o => and_congr_right fun ho => ?_
    have h0 := (ht mo hmo o ho).1
    rw [if_neg (by omega)]
    simp only [Option.mem_toList, Option.map_eq_some_iff]
    exact exists_congr fun m => and_congr_right fun _ => eq_comm
  have hnames : ∀ x, x ∈ (addMorphMaterials base morphs).map Material.name ↔ x ∈ base.map Material.name ∨
      ∃ mo ∈ morphs, ∃ o ∈ mo.offsets, ∃ m, base[o.target.toNat]? = some m ∧ x = morphPrefix mo.name ++ m.name := by
    intro x
    rw [List.mem_map, List.mem_map]
    constructor
    · rintro ⟨y, hy, rfl⟩
      rcases (hmem y).mp hy with h | ⟨mo, h1, o, h2, m, h3, rfl⟩
      · exact .inl ⟨y, h, rfl⟩
      · exact .inr ⟨mo, h1, o, h2, m, h3, rfl⟩
    · rintro (⟨y, h, rfl⟩ | ⟨mo, h1, o, h2, m, h3, rfl⟩)
      · exact ⟨y, (hmem y).mpr (.inl h), rfl⟩
      · exact ⟨morphMaterial mo.name o m, (hmem _).mpr (.inr ⟨mo, h1, o, h2, m, h3, rfl⟩), rfl⟩
  have hbase : ∀ x, morphMark ++ x ∉ base.map Material.name := by
    intro x hx
    obtain ⟨m, hm, he⟩ := List.mem_map.mp hx
    exact hp m hm x he
  -- what a name with the prefix of the morph means
  have hpre : ∀ x, morphPrefix name ++ x ∈ (addMorphMaterials base morphs).map Material.name →
      ∃ mo ∈ morphs, mo.name = name ∧ ∃ o ∈ mo.offsets, ∃ m, base[o.target.toNat]? = some m ∧ x = m.name := by
    intro x hx
    rcases (hnames _).mp hx with h | ⟨mo, h1, o, h2, m, h3, h4⟩
    · obtain ⟨y, hy⟩ := hmark name x
      rw [hy] at h
      exact absurd h (hbase y)
    · obtain ⟨e1, e2⟩ := prefix_inj name mo.name x m.name hcn (hc mo h1) h4
      exact ⟨mo, h1, e1.symm, o, h2, m, h3, e2⟩
  have hnodup : ((addMorphMaterials base morphs).map Material.name).Nodup := by
    rw [hA, List.map_append, List.nodup_append]
    refine ⟨hb, ?_, ?_⟩
    · rw [List.map_flatMap, List.nodup_flatMap]
      have hin : ∀ mo ∈ morphs, ∀ x, x ∈ (mo.offsets.flatMap fun o =>
          ((if o.target < 0 then none else base[o.target.toNat]?).map (morphMaterial mo.name o)).toList).map Material.name →
          ∃ y, x = morphPrefix mo.name ++ y := by
        intro mo _ x hx
        obtain ⟨y, hy, rfl⟩ := List.mem_map.mp hx
        obtain ⟨o, _, ho⟩ := List.mem_flatMap.mp hy
        rw [Option.mem_toList, Option.map_eq_some_iff] at ho
        obtain ⟨m, _, rfl⟩ := ho
        exact ⟨m.name, rfl⟩
      constructor
      · intro mo hmo
        have hsub : ∀ os : List (MatOffset F), (os.map MatOffset.target).Nodup →
            (∀ o ∈ os, 0 ≤ o.target ∧ o.target < base.length) →
            ((os.flatMap fun o => ((if o.target < 0 then none else base[o.target.toNat]?).map
              (morphMaterial mo.name o)).toList).map Material.name).Nodup := by
          intro os hos hto
          rw [List.map_flatMap, List.nodup_flatMap]
          constructor
          · intro o _
            cases (if o.target < 0 then none else base[o.target.toNat]?) <;> simp
          · have hpw : os.Pairwise fun a b => a.target ≠ b.target := by
              rw [List.Nodup, List.pairwise_map] at hos
              exact hos
            refine List.Pairwise.imp_of_mem ?_ hpw
            intro a b ha hb' hab x hx hy
            obtain ⟨y, hy1, rfl⟩ := List.mem_map.mp hx
            obtain ⟨z, hz1, hz2⟩ := List.mem_map.mp hy
            rw [Option.mem_toList, Option.map_eq_some_iff] at hy1 hz1
            obtain ⟨m1, hm1, rfl⟩ := hy1
            obtain ⟨m2, hm2, rfl⟩ := hz1
            have he : m2.name = m1.name := List.append_cancel_left hz2
            have h1 := hto a ha
            have h2 := hto b hb'
            rw [if_neg (by omega)] at hm1 hm2
            have := Mqo.nodup_idx Material.name base hb _ _ m2 m1 hm2 hm1 he
            omega
        exact hsub mo.offsets (hd mo hmo) (ht mo hmo)
      · have hpw : morphs.Pairwise fun a b => a.name ≠ b.name := by
          rw [List.Nodup, List.pairwise_map] at hmn
          exact hmn
        refine List.Pairwise.imp_of_mem ?_ hpw
        intro a b ha hb' hab x hx hy
        obtain ⟨y, rfl⟩ := hin a ha x hx
        obtain ⟨z, hz⟩ := hin b hb' _ hy
        exact hab (prefix_inj a.name b.name y z (hc a ha) (hc b hb') hz).1
    · intro x hx y hy hxy
      subst hxy
      obtain ⟨y, hy1, rfl⟩ := List.mem_map.mp hy
      obtain ⟨mo, _, h1⟩ := List.mem_flatMap.mp hy1
      obtain ⟨o, _, h2⟩ := List.mem_flatMap.mp h1
      rw [Option.mem_toList, Option.map_eq_some_iff] at h2
      obtain ⟨m, _, rfl⟩ := h2
      obtain ⟨z, hz⟩ := hmark mo.name m.name
      refine hbase z ?_
      rw [← hz]
      exact hx
  obtain ⟨ms', h1, h2, h3⟩ := Mqo.materialMorph_partial (addMorphMaterials base morphs) name w hnodup
    (by
      intro x _ hxx
      obtain ⟨mo, _, _, o, _, m, hm, he⟩ := hpre _ hxx
      obtain ⟨y, hy⟩ := hmark name x
      exact hp m (List.mem_of_getElem? hm) y (by rw [← he, hy]))
    (by
      intro x hx
      obtain ⟨mo, _, _, o, _, m, hm, he⟩ := hpre _ hx
      rw [hnames]
      exact .inl (List.mem_map.mpr ⟨m, List.mem_of_getElem? hm, he.symm⟩))
  refine ⟨ms', h1, ?_⟩
  intro i m m' hi hi'
  have hiA : (addMorphMaterials base morphs)[i]? = some m := by
    rw [hA, List.getElem?_append_left (List.getElem?_eq_some_iff.mp hi).1]
    exact hi
  obtain ⟨h4, h5⟩ := h3 i m m' hiA hi'
  constructor
  · intro mo hmo hname o ho hti
    have hx : morphMaterial mo.name o m ∈ addMorphMaterials base morphs :=
      (hmem _).mpr (.inr ⟨mo, hmo, o, ho, m, by rw [hti]; exact hi, rfl⟩)
    have h6 := h5 _ hx (by rw [← hname]; rfl)
    rw [h6]
    constructor
    · intro hf
      simp only [morphMaterial, hf, if_true, Vec4.add, Vec4.scale, Vec4.mk.injEq]
      exact ⟨by ring, by ring, by ring, by ring⟩
    · intro hf
      simp only [morphMaterial, hf, if_false, Vec4.add, Vec4.scale, Vec4.mk.injEq]
      exact ⟨by ring, by ring, by ring, by ring⟩
  · intro hno
    refine h4 fun x hx he => ?_
    have hmem' : morphPrefix name ++ m.name ∈ (addMorphMaterials base morphs).map Material.name :=
      List.mem_map.mpr ⟨x, hx, he⟩
    obtain ⟨mo, hmo, hname, o, ho, m2, hm2, he2⟩ := hpre _ hmem'
    have := Mqo.nodup_idx Material.name base hb _ _ m2 m hm2 hi he2.symm
    have h0 := (ht mo hmo o ho).1
    exact hno mo hmo hname o ho (by omega)

/-- C164 does not hold for offsets that name all materials (target -1 in PMX): they have no effect. -/
theorem all_materials_false (ms : List (Material F)) (name : Str) (os : List (MatOffset F))
    (h : ∀ o ∈ os, o.target = -1) : addMorphMaterials ms [⟨name, os⟩] = ms := by
  unfold addMorphMaterials
  simp only [List.foldl_cons, List.foldl_nil]
  induction os with
  | nil => rfl
  | cons o os ih =>
    rw [List.foldl_cons]
    have : addMorphMaterial name ms o = ms := by
      unfold addMorphMaterial
      rw [if_pos (by rw [h o (by simp)]; decide)]
    rw [this]
    exact ih fun x hx => h x (by simp [hx])

end

/-! ### C165: materials of FBX files -/

open Verif.Fbx (Value Node Property PropObj PropOp runProps toStr initialProps WellFormed)
open Verif.Mmd (Bytes)

/-- C165: the numbers of a converted material are those of its properties; a property that the material does not have is
taken from the template of the file. -/
theorem fbx_material_values [Field F] (c : FbxNum F) (name : Bytes) (l lt : List Node) (tmpl : Bool)
    (h : WellFormed l) (ht : WellFormed lt) (refs : List Node) :
    ∃ r, fbxMaterial c name ⟨some l, none⟩ (if tmpl then some ⟨some lt, none⟩ else none) refs = some r ∧
      ∀ p : Bytes → Property, p = initialProps l (if tmpl then lt else []) →
        r.color = ⟨c.get (p b! "DiffuseColor").attrs[0]? 1, c.get (p b! "DiffuseColor").attrs[1]? 1,
          c.get (p b! "DiffuseColor").attrs[2]? 1, c.get (p b! "Opacity").attrs[0]? 1⟩ ∧
        r.diffuse = c.get (p b! "DiffuseFactor").attrs[0]? 1 ∧
        r.specular = c.get (p b! "SpecularColor").attrs[0]? 0 * c.get (p b! "SpecularFactor").attrs[0]? 0 ∧
        r.emission = c.get (p b! "EmissiveColor").attrs[0]? 0 * c.get (p b! "EmissiveFactor").attrs[0]? 0 / 10 ∧
        r.ambient = c.get (p b! "AmbientColor").attrs[0]? 0 * c.get (p b! "AmbientFactor").attrs[0]? 0 ∧
        r.power = c.get (p b! "ShininessExponent").attrs[0]? 0 := by
  unfold fbxMaterial
  rw [Fbx.property_history_partial l lt tmpl h ht]
  simp only [fbxMatProps, List.map_cons, List.map_nil, Fbx.specProps]
  refine ⟨_, rfl, ?_⟩
  intro p hp
  subst hp
  refine ⟨rfl, rfl, rfl, ?_, rfl, rfl⟩
  simp only [fbxColor, fbxFactor, Vec3.scale]
  ring

/-- C165: a whole number of a property is this number, whatever its size in the file. -/
theorem fbx_whole_number (c : FbxNum F) (ty : Fbx.NumTy) (v : Int) (d : F)
    (ht : ty = .i8 ∨ ty = .i16 ∨ ty = .i32 ∨ ty = .i64)
    (h : -(256 ^ ty.width : Nat) ≤ 2 * v ∧ 2 * v < (256 ^ ty.width : Nat)) :
    c.get (some (.num ty (Mmd.ofLe (Mmd.intBytes ty.width v)))) d = c.int v := by
  rcases ht with rfl | rfl | rfl | rfl
  all_goals exact congrArg c.int (Mmd.toSigned_intBytes _ v h)

example : -(256 ^ Fbx.NumTy.i16.width : Nat) ≤ 2 * (-300 : Int) ∧ 2 * (-300 : Int) < (256 ^ Fbx.NumTy.i16.width : Nat) := by decide

/-- C165: the texture is the file of the first texture that is connected to the material, if there is one. -/
theorem fbx_material_texture [Field F] (c : FbxNum F) (name : Bytes) (l lt : List Node) (tmpl : Bool)
    (h : WellFormed l) (ht : WellFormed lt) (before after : List Node) (t f : Node) (file : Bytes)
    (hb : ∀ n ∈ before, n.name ≠ b! "Texture") (htn : t.name = b! "Texture")
    (hf : Fbx.findChild (some t) b! "RelativeFilename" = some f) (hfa : f.attrs = [.str file]) :
    (fbxMaterial c name ⟨some l, none⟩ (if tmpl then some ⟨some lt, none⟩ else none) (before ++ t :: after)).map
      (·.texture) = some file := by
  have ht' : fbxTexture (before ++ t :: after) = some t := by
    unfold fbxTexture
    rw [List.filter_append, List.filter_eq_nil_iff.mpr (by simpa using hb), List.nil_append,
      List.filter_cons_of_pos (by simp [htn])]
    rfl
  unfold fbxMaterial
  rw [Fbx.property_history_partial l lt tmpl h ht]
  simp only [fbxMatProps, List.map_cons, List.map_nil, Fbx.specProps, Option.map_some, ht', hf]
  simp [Fbx.attr, hfa, toStr]

/-- C165 does not hold for names: a binary file gives the name with `::Material` after it. -/
theorem fbx_name_false (name : Bytes) (h : ∀ b ∈ name, b ≠ 0) :
    fbxName (name ++ [0, 1] ++ b! "Material") = name ++ b! "::Material" := by
  induction name with
  | nil => decide
  | cons a name ih =>
    have ih' := ih fun b hb => h b (by simp [hb])
    have ha : a ≠ 0 := h a (by simp)
    cases name with
    | nil =>
      simp only [List.cons_append, List.nil_append] at ih' ⊢
      rw [fbxName, if_neg (by simp [ha]), ih']
    | cons b name =>
      simp only [List.cons_append] at ih' ⊢
      rw [fbxName, if_neg (by simp [ha]), ih']

/-- C165 does not hold for the kind of texture: what the textures are connected to makes no difference, so that a normal
map that comes first is the texture of the color. -/
theorem fbx_texture_kind_false [Field F] (c : FbxNum F) (name : Bytes) (o : PropObj) (tmpl : Option PropObj)
    (normal color : Node) (hn : normal.name = b! "Texture") :
    fbxMaterial c name o tmpl [normal, color] = fbxMaterial c name o tmpl [normal] := by
  have e : fbxTexture [normal, color] = fbxTexture [normal] := by
    unfold fbxTexture
    simp [hn]
  unfold fbxMaterial
  rw [e]

/-! Examples for C163, C164 and C165. -/

local instance floatOpsRatMat : FloatOps ℚ := ⟨id, fun a b => decide (a < b), fun a b => decide (a ≤ b)⟩

/-- A red, double sided material with the second texture. -/
def sampleMmdMat : MmdMat ℚ :=
  ⟨"red".toList, [], ⟨1, 0, 0, 1⟩, ⟨0, 0, 0⟩, 5, ⟨1, 1, 1⟩, 1, ⟨0, 0, 0, 1⟩, 1, 1, -1, 0, 0, 0, [], 3⟩

/-- Hypotheses of `mmd_material_values`, and of `mmd_texture_false` in both directions. -/
example : (mmdMaterial ["a.png".toList, "b.png".toList] sampleMmdMat).map
      (fun r => (r.name, r.texture, r.doubleSided)) = some ("red".toList, "b.png".toList, true) ∧
    (mmdMaterialList ["a.png".toList] [sampleMmdMat]).isNone = true := by decide +kernel

/-- An MQO material. -/
def sampleMqoMat (name texture : Str) (c : Vec4 ℚ) : Material ℚ :=
  ⟨name, 0, c, 1, 1, 0, 0, 5, texture, [], [], none, true, 0, none⟩

/-- Hypotheses of `mqo_material_values`, `material_round_trip` and `double_sided_false`: three materials, of which
two have a texture, and all are double sided. -/
example : mqoMaterials [(sampleMqoMat "a".toList "t".toList ⟨1, 0, 0, 1⟩, 1), (sampleMqoMat "b".toList [] ⟨0, 1, 0, 1⟩, 2),
      (sampleMqoMat "c".toList "t".toList ⟨0, 0, 1, 1⟩, 3)] [] =
    (["t".toList, "t".toList],
      [mqoMaterial (sampleMqoMat "a".toList "t".toList ⟨1, 0, 0, 1⟩) 1 0,
       mqoMaterial (sampleMqoMat "b".toList [] ⟨0, 1, 0, 1⟩) 2 (-1),
       mqoMaterial (sampleMqoMat "c".toList "t".toList ⟨0, 0, 1, 1⟩) 3 1]) := by decide +kernel

/-- Hypotheses of `mmd_edge` and `edge_flag_false`: an edge that the flags leave out. -/
example : (mmdMaterial ["t".toList] ({ mqoMaterial (sampleMqoMat "a".toList "t".toList ⟨1, 0, 0, 1⟩) 1 0 with edgeScale := 2 } : MmdMat ℚ)).isSome ∧
    16 % 2 = (mqoMaterial (sampleMqoMat "a".toList "t".toList ⟨1, 0, 0, 1⟩) 1 0).flags % 2 := by decide +kernel

/-- A morph that adds to one material and multiplies the other. -/
def sampleMorph : MatMorph ℚ := ⟨"m".toList, [⟨0, 1, ⟨0, 1, 0, 0⟩, 1⟩, ⟨1, 0, ⟨1, 1 / 2, 1, 1⟩, 1⟩]⟩

def sampleBase : List (Material ℚ) :=
  [sampleMqoMat "a".toList [] ⟨1, 0, 0, 1⟩, sampleMqoMat "b".toList [] ⟨0, 1, 0, 1⟩]

/-- Hypotheses of `morph_materials` and `morph_effect_partial`. -/
example : (sampleBase.map Material.name).Nodup ∧ ':' ∉ sampleMorph.name ∧
    (sampleMorph.offsets.map MatOffset.target).Nodup ∧
    (∀ o ∈ sampleMorph.offsets, 0 ≤ o.target ∧ o.target < sampleBase.length) := by decide +kernel

example : ∀ m ∈ sampleBase, ∀ x, m.name ≠ morphMark ++ x := by
  intro m hm x
  simp only [sampleBase, List.mem_cons, List.not_mem_nil, or_false] at hm
  rcases hm with rfl | rfl <;> simp [sampleMqoMat, morphMark]

/-- What the theorem says for half the weight. -/
example : ((Mqo.applyMaterialMorph (addMorphMaterials sampleBase [sampleMorph]) "m".toList (1 / 2)).map
    fun l => (l.map Material.color).take 2) = some [⟨1, 1 / 2, 0, 1⟩, ⟨0, 3 / 4, 0, 1⟩] := by decide +kernel

/-- Hypotheses of `all_materials_false`. -/
example : ∀ o ∈ [(⟨-1, 1, ⟨1, 1, 1, 0⟩, 1⟩ : MatOffset ℚ)], o.target = -1 := by decide +kernel

/-- The properties of a material and of the template. -/
def sampleFbxProps : List Node :=
  [.mk b! "P" [.str b! "DiffuseColor", .str [], .str [], .str [], .num .i32 2, .num .i32 3, .num .i32 4] []]
def sampleFbxTemplate : List Node :=
  [.mk b! "P" [.str b! "DiffuseColor", .str [], .str [], .str [], .num .i32 9, .num .i32 9, .num .i32 9] [],
    .mk b! "P" [.str b! "Opacity", .str [], .str [], .str [], .num .i32 5] []]

/-- Hypotheses of `fbx_material_values`. -/
example : WellFormed sampleFbxProps ∧ WellFormed sampleFbxTemplate := by
  constructor
  · exact ⟨by intro n hn; simp [sampleFbxProps] at hn; rw [hn]; simp, by decide +kernel⟩
  · exact ⟨by intro n hn; simp [sampleFbxTemplate] at hn; rcases hn with rfl | rfl <;> simp, by decide +kernel⟩

/-- The color is that of the material, the opacity that of the template. -/
example : (fbxMaterial (⟨fun n => n, fun n => n, fun n => n⟩ : FbxNum ℚ) b! "m" ⟨some sampleFbxProps, none⟩
    (some ⟨some sampleFbxTemplate, none⟩) []).map (fun r => (r.color, r.diffuse)) = some (⟨2, 3, 4, 5⟩, 1) := by
  decide +kernel

/-- Hypotheses of `fbx_material_texture` and `fbx_texture_kind_false`: a texture with a file. -/
example : ∃ f, Fbx.findChild (some (.mk b! "Texture" [] [.mk b! "RelativeFilename" [.str b! "a.png"] []]))
    b! "RelativeFilename" = some f ∧ f.attrs = [.str b! "a.png"] := ⟨_, rfl, rfl⟩

/-- Hypotheses of `fbx_name_false`. -/
example : ∀ b ∈ b! "skin", b ≠ 0 := by decide

end Verif.Conv
