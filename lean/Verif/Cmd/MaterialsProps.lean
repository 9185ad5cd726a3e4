import Verif.Cmd.Materials
import Verif.Gltf.MaterialProps
import Verif.Conv.GltfNodesProps

/-! Property C157: the options for materials, up to the exported glTF materials. -/

namespace Verif.Cmd

open Verif.Geom Verif.Mqo Verif.Gltf Verif.Conv

variable {F : Type}

section

variable [Zero F] [One F]

omit [Zero F] [One F] in
theorem ofMaterial_setAlphaMode (m : Material F) (mode : Int) :
    ofMaterial (setAlphaMode m mode) = (ofMaterial m).setAlphaMode mode := by
  unfold ofMaterial setAlphaMode GMaterial.setAlphaMode
  generalize "glTF".toList = g
  generalize "AlphaMode".toList = k
  have hf : ∀ l : List (Str × Param F), (l.filter fun p => p.1 ≠ k).map (fun p => (p.1, GValue.param p.2)) =
      (l.map fun p => (p.1, GValue.param p.2)).filter fun p => p.1 ≠ k := by
    intro l
    rw [List.filter_map]
    rfl
  cases hm : m.ex2 with
  | none => simp
  | some e =>
    by_cases hg : e.shaderName = g
    · simp only [Option.map_some, if_pos hg, List.map_cons, hf]
    · simp only [Option.map_some, if_neg hg, List.map_cons, hf, List.map_nil]

theorem mapM_get {α β : Type} (f : α → Option β) : ∀ (l : List α) (l' : List β), l.mapM f = some l' → ∀ (i : Nat) (a : α),
    l[i]? = some a → ∃ b, l'[i]? = some b ∧ f a = some b := by
  intro l
  induction l with
  | nil => intro l' _ i a h; simp at h
  | cons x l ih =>
    intro l' h i a ha
    rw [List.mapM_cons] at h
    simp only [Option.bind_eq_bind, Option.bind_eq_some_iff, Option.pure_def, Option.some.injEq] at h
    obtain ⟨b, hb, bs, hbs, rfl⟩ := h
    cases i with
    | zero =>
      simp only [List.getElem?_cons_zero, Option.some.injEq] at ha
      subst ha
      exact ⟨b, rfl, hb⟩
    | succ i => exact ih bs hbs i a (by simpa using ha)

/-- One material: the rules one after another. -/
theorem alphaOverrides_get (parse : Str → Option F) : ∀ (rules : List ((Str → Bool) × Str)) (mats mats' : List (Material F)),
    alphaOverrides parse rules mats = some mats' → ∀ (i : Nat) (x : Material F), mats[i]? = some x →
      ∃ x', mats'[i]? = some x' ∧ rules.foldlM (alphaStep parse) x = some x' := by
  intro rules
  induction rules with
  | nil =>
    intro mats mats' h i x hx
    simp only [alphaOverrides, List.foldlM_nil, Option.pure_def, Option.some.injEq] at h
    subst h
    exact ⟨x, hx, rfl⟩
  | cons r rules ih =>
    intro mats mats' h i x hx
    simp only [alphaOverrides, List.foldlM_cons, Option.bind_eq_bind, Option.bind_eq_some_iff] at h
    obtain ⟨m1, h1, h2⟩ := h
    obtain ⟨y, hy1, hy2⟩ := mapM_get _ _ _ h1 i x hx
    obtain ⟨x', g1, g2⟩ := ih m1 mats' h2 i y hy1
    refine ⟨x', g1, ?_⟩
    rw [List.foldlM_cons, hy2]
    exact g2

theorem rules_skip (parse : Str → Option F) (x : Material F) : ∀ rules : List ((Str → Bool) × Str),
    (∀ r ∈ rules, r.1 x.name = false) → rules.foldlM (alphaStep parse) x = some x := by
  intro rules
  induction rules with
  | nil => intro _; rfl
  | cons r rules ih =>
    intro h
    rw [List.foldlM_cons]
    have : alphaStep parse x r = some x := by
      unfold alphaStep
      rw [h r (by simp)]
      rfl
    rw [this]
    exact ih fun r hr => h r (by simp [hr])

/-- C157. A material matched by just one rule of `-alpha` is changed by that rule; one that no rule matches is not changed. -/
theorem alpha_rules (parse : Str → Option F) (rules : List ((Str → Bool) × Str)) (mats mats' : List (Material F))
    (h : alphaOverrides parse rules mats = some mats') (i : Nat) (x : Material F) (hx : mats[i]? = some x) :
    ((∀ r ∈ rules, r.1 x.name = false) → mats'[i]? = some x) ∧
    ∀ (pre post : List ((Str → Bool) × Str)) (p : Str → Bool) (v : Str), rules = pre ++ (p, v) :: post → p x.name = true →
      (∀ r ∈ pre, r.1 x.name = false) → (∀ r ∈ post, r.1 x.name = false ∧ r.1 (x.name ++ "$IGNORE".toList) = false) →
      ∃ x', mats'[i]? = some x' ∧ alphaRule parse v x = some x' := by
  obtain ⟨x', h1, h2⟩ := alphaOverrides_get parse rules mats mats' h i x hx
  constructor
  · intro hr
    rw [rules_skip parse x rules hr] at h2
    rw [h1, ← Option.some.inj h2]
  · intro pre post p v hrules hp hpre hpost
    refine ⟨x', h1, ?_⟩
    rw [hrules, List.foldlM_append, rules_skip parse x pre hpre] at h2
    simp only [Option.bind_eq_bind, Option.bind_some, List.foldlM_cons] at h2
    have hs : alphaStep parse x (p, v) = alphaRule parse v x := by
      unfold alphaStep
      simp only [hp, if_true]
    rw [hs] at h2
    obtain ⟨y, hy, h3⟩ := Option.bind_eq_some_iff.1 h2
    have hname : y.name = x.name ∨ y.name = x.name ++ "$IGNORE".toList := by
      unfold alphaRule at hy
      split at hy
      · cases hy; exact .inl rfl
      split at hy
      · cases hy; exact .inl rfl
      split at hy
      · cases hy; exact .inl rfl
      split at hy
      · cases hy; exact .inr rfl
      split at hy
      · split at hy <;> cases hy <;> exact .inl rfl
      · cases hy
    rw [rules_skip parse y post] at h3
    · rw [hy, Option.some.inj h3]
    · intro r hr
      rcases hname with e | e <;> rw [e]
      · exact (hpost r hr).1
      · exact (hpost r hr).2

end

section

variable [Zero F] [One F] [Div F] [DecidableEq F] [FloatOps F]

/-- C157. The exported material for each value of `-alpha`. -/
theorem alpha_exported (parse : Str → Option F) (x x' : Material F) (v : Str) (hv : alphaRule parse v x = some x')
    (opt : MatOptions F) (load : Str → Bool) (alpha : Bool) (ts : List Str) (o : OutMaterial F) (ts' : List Str)
    (hr : exportMaterial opt load alpha (ofMaterial x') ts = some (o, ts')) :
    (o.baseColor.x = x.color.x ∧ o.baseColor.y = x.color.y ∧ o.baseColor.z = x.color.z) ∧
    (v = "opaque".toList → o.alphaMode = .opaque ∧ o.baseColor.w = 1) ∧
    (v = "mask".toList → o.alphaMode = .mask ∧ o.baseColor.w = x.color.w) ∧
    (v = "blend".toList → o.alphaMode = .blend ∧ o.baseColor.w = x.color.w) ∧
    (v = "0".toList → ignoredName x'.name = true) ∧
    (∀ a, v ≠ "opaque".toList → v ≠ "mask".toList → v ≠ "blend".toList → v ≠ "0".toList → parse v = some a →
      o.baseColor.w = a ∧ x'.name = x.name ∧ (FloatOps.lt a opt.limit = true → o.alphaMode = .blend)) := by
  have hcol := (material_fields opt load alpha _ ts o ts' hr).2.1
  have n1 : "opaque".toList ≠ "mask".toList := by decide
  have n2 : "opaque".toList ≠ "blend".toList := by decide
  have n3 : "opaque".toList ≠ "0".toList := by decide
  have n4 : "mask".toList ≠ "blend".toList := by decide
  have n5 : "mask".toList ≠ "0".toList := by decide
  have n6 : "blend".toList ≠ "0".toList := by decide
  unfold alphaRule at hv
  by_cases h1 : v = "opaque".toList
  · rw [if_pos h1] at hv
    cases hv
    have hm : ofMaterial { setAlphaMode x 1 with color := { x.color with w := 1 } } =
        GMaterial.setAlphaMode { ofMaterial x with color := { x.color with w := 1 } } 1 := by
      have := ofMaterial_setAlphaMode { x with color := { x.color with w := 1 } } 1
      exact this
    rw [hm] at hr
    have hmode := alpha_mode_set opt load alpha _ 1 ts o ts' hr
    rw [hcol]
    exact ⟨⟨rfl, rfl, rfl⟩, fun _ => ⟨hmode, rfl⟩, fun e => absurd (h1.symm.trans e) n1, fun e => absurd (h1.symm.trans e) n2,
      fun e => absurd (h1.symm.trans e) n3, fun _ e => absurd h1 e⟩
  rw [if_neg h1] at hv
  by_cases h2 : v = "mask".toList
  · rw [if_pos h2] at hv
    cases hv
    rw [ofMaterial_setAlphaMode] at hr
    have hmode := alpha_mode_set opt load alpha _ 2 ts o ts' hr
    rw [hcol]
    exact ⟨⟨rfl, rfl, rfl⟩, fun e => absurd e h1, fun _ => ⟨hmode, rfl⟩, fun e => absurd (h2.symm.trans e) n4,
      fun e => absurd (h2.symm.trans e) n5, fun _ _ e => absurd h2 e⟩
  rw [if_neg h2] at hv
  by_cases h3 : v = "blend".toList
  · rw [if_pos h3] at hv
    cases hv
    rw [ofMaterial_setAlphaMode] at hr
    have hmode := alpha_mode_set opt load alpha _ 3 ts o ts' hr
    rw [hcol]
    exact ⟨⟨rfl, rfl, rfl⟩, fun e => absurd e h1, fun e => absurd e h2, fun _ => ⟨hmode, rfl⟩,
      fun e => absurd (h3.symm.trans e) n6, fun _ _ _ e => absurd h3 e⟩
  rw [if_neg h3] at hv
  by_cases h4 : v = "0".toList
  · rw [if_pos h4] at hv
    cases hv
    rw [hcol]
    refine ⟨⟨rfl, rfl, rfl⟩, fun e => absurd e h1, fun e => absurd e h2, fun e => absurd e h3, fun _ => ?_,
      fun _ _ _ _ e => absurd h4 e⟩
    unfold ignoredName ignoreMaterial
    rw [Bool.or_eq_true]
    left
    exact List.isSuffixOf_iff_suffix.2 (List.suffix_append _ _)
  rw [if_neg h4] at hv
  cases hp : parse v with
  | none => rw [hp] at hv; cases hv
  | some a =>
    rw [hp] at hv
    simp only at hv
    by_cases hg : (ofMaterial x).shaderName = "glTF".toList
    · rw [if_pos hg] at hv
      cases hv
      have hm : ofMaterial { setAlphaMode x 3 with color := { x.color with w := a } } =
          GMaterial.setAlphaMode { ofMaterial x with color := { x.color with w := a } } 3 := by
        have := ofMaterial_setAlphaMode { x with color := { x.color with w := a } } 3
        exact this
      rw [hm] at hr
      have hmode := alpha_mode_set opt load alpha _ 3 ts o ts' hr
      rw [hcol]
      refine ⟨⟨rfl, rfl, rfl⟩, fun e => absurd e h1, fun e => absurd e h2, fun e => absurd e h3, fun e => absurd e h4, ?_⟩
      intro b _ _ _ _ hb
      cases hb
      exact ⟨rfl, rfl, fun _ => hmode⟩
    · rw [if_neg hg] at hv
      cases hv
      have hno : ∀ e, ¬ IsGltf (ofMaterial { x with color := { x.color with w := a } }) e := by
        intro e he
        apply hg
        obtain ⟨he1, he2⟩ := he
        have he1' : (ofMaterial x).ex2 = some e := he1
        unfold GMaterial.shaderName
        rw [he1']
        exact he2
      obtain ⟨-, -, hmode, -⟩ := (material_fields opt load alpha _ ts o ts' hr).2.2.2.2.2 hno
      rw [hcol]
      refine ⟨⟨rfl, rfl, rfl⟩, fun e => absurd e h1, fun e => absurd e h2, fun e => absurd e h3, fun e => absurd e h4, ?_⟩
      intro b _ _ _ _ hb
      cases hb
      exact ⟨rfl, rfl, fun hl => hmode.2 (.inl hl)⟩

omit [Div F] [DecidableEq F] [FloatOps F] [One F] in
/-- C157. With `-hidemat` exactly the materials that match get no number in the glTF file, besides those that are not used or
were to be ignored already; so their faces are left out. -/
theorem hidemat_exported (m : Str → Bool) (mats : List (Material F)) (used : Nat → Bool) (i : Nat) (x : Material F)
    (hx : mats[i]? = some x) :
    ((materialMap used (hideMaterials m mats)).lookup (i : Int)).isSome = (used i && !m x.name && !ignoredName x.name) := by
  have hx' : (hideMaterials m mats)[i]? =
      some (if m x.name then { x with name := x.name ++ "$IGNORE".toList, color := { x.color with w := 0 } } else x) := by
    rw [hideMaterials, List.getElem?_map, hx]
    rfl
  rw [(materialMap_spec used _ i _ hx').1]
  cases hm : m x.name with
  | false => simp
  | true =>
    have : ignoredName (x.name ++ "$IGNORE".toList) = true := by
      unfold ignoredName
      rw [Bool.or_eq_true]
      left
      exact List.isSuffixOf_iff_suffix.2 (List.suffix_append _ _)
    simp only [if_true, this]
    simp

omit [Zero F] [One F] [Div F] [DecidableEq F] [FloatOps F] in
theorem unlit_get (m : Str → Bool) (mats : List (Material F)) (i : Nat) (x : Material F) (hx : mats[i]? = some x) :
    (unlit m mats)[i]? = some (if m x.name then { x with shader := 1, ex2 := none } else x) := by
  rw [unlit, List.getElem?_map, hx]
  rfl

/-- C157. With `-unlit` the materials that match are exported with the unlit extension, their color and their texture;
others are not changed. -/
theorem unlit_exported (m : Str → Bool) (mats : List (Material F)) (i : Nat) (x : Material F) (hx : mats[i]? = some x) :
    ∃ x', (unlit m mats)[i]? = some x' ∧ (m x.name = false → x' = x) ∧
      (m x.name = true → ∀ (opt : MatOptions F) (load : Str → Bool) (alpha : Bool) (ts : List Str) (o : OutMaterial F) (ts' : List Str),
        TexOk load ts → exportMaterial opt load alpha (ofMaterial x') ts = some (o, ts') →
        (∃ e ∈ o.extensions, e.1 = unlitName) ∧ o.baseColor = x.color ∧ o.name = x.name ∧
        (o.alphaMode = .blend ↔ FloatOps.lt x.color.w opt.limit = true ∨ (opt.detectAlpha = true ∧ alpha = true))) := by
  refine ⟨_, unlit_get m mats i x hx, fun h => by rw [h]; rfl, ?_⟩
  intro hm opt load alpha ts o ts' hts hr
  rw [hm] at hr
  simp only [if_true] at hr
  obtain ⟨f1, f2, -, -, -, f6⟩ := material_fields opt load alpha _ ts o ts' hr
  obtain ⟨-, -, f7, -⟩ := f6 (by intro e he; cases he.1)
  refine ⟨?_, f2, f1, f7⟩
  obtain ⟨-, -, hrefs⟩ := exportMaterial_refs opt load alpha _ ts hts o ts' hr
  rw [hrefs.unlit]
  exact .inr (.inl rfl)

/-- C157 is false for `-alpha` together with `-unlit`: the alpha mode that was set is lost, a mask never comes out, and
an opaque color never comes out blended. -/
theorem unlit_alpha_false (parse : Str → Option F) (v : Str) (hvs : v = "mask".toList ∨ v = "blend".toList) (x x' : Material F)
    (hv : alphaRule parse v x = some x') (m : Str → Bool) (hm : m x.name = true)
    (opt : MatOptions F) (hopt : opt.detectAlpha = false) (hcol : FloatOps.lt x.color.w opt.limit = false)
    (load : Str → Bool) (alpha : Bool) (ts : List Str) :
    ∃ y, unlit m [x'] = [y] ∧ ∀ (o : OutMaterial F) (ts' : List Str),
      exportMaterial opt load alpha (ofMaterial y) ts = some (o, ts') → o.alphaMode = .opaque := by
  have hx' : x'.name = x.name ∧ x'.color = x.color := by
    unfold alphaRule at hv
    rcases hvs with rfl | rfl
    · rw [if_neg (by decide), if_pos rfl] at hv
      cases hv
      exact ⟨rfl, rfl⟩
    · rw [if_neg (by decide), if_neg (by decide), if_pos rfl] at hv
      cases hv
      exact ⟨rfl, rfl⟩
  refine ⟨{ x' with shader := 1, ex2 := none }, by simp [unlit, hx'.1, hm], ?_⟩
  intro o ts' hr
  obtain ⟨-, -, h1, h2⟩ := (material_fields opt load alpha _ ts o ts' hr).2.2.2.2.2 (by intro e he; cases he.1)
  cases ho : o.alphaMode with
  | «opaque» => rfl
  | mask => exact absurd ho h2
  | blend =>
    exfalso
    rcases h1.1 ho with h | h
    · have : FloatOps.lt x'.color.w opt.limit = true := h
      rw [hx'.2, hcol] at this
      cases this
    · rw [hopt] at h
      cases h.1

end

/-! ### Examples -/

/-- A material of a classic shader. -/
def skin : Material ℚ := ⟨"skin".toList, 0, ⟨1, 1 / 2, 0, 1⟩, 1, 1, 0, 0, 0, [], [], [], none, false, 0, none⟩

/-- A material of the glTF shader. -/
def glass : Material ℚ :=
  { skin with name := "glass".toList, ex2 := some ⟨[], "glTF".toList, [("Roughness".toList, .float (1 / 2))], [], []⟩ }

/-- Only `0.5` is a number here. -/
def halfOnly (s : Str) : Option ℚ := if s = "0.5".toList then some (1 / 2) else none

def isSkin (n : Str) : Bool := n = "skin".toList
def isGlass (n : Str) : Bool := n = "glass".toList

/-- `-alpha skin:0,glass:0.5`: names, colors and modes. -/
example : (alphaOverrides halfOnly [(isSkin, "0".toList), (isGlass, "0.5".toList)] [skin, glass]).map (fun l =>
      l.map fun m => (m.name, m.color.w)) = some [("skin$IGNORE".toList, 0), ("glass".toList, 1 / 2)] ∧
    (alphaOverrides halfOnly [(isSkin, "0".toList), (isGlass, "0.5".toList)] [skin, glass]).map (fun l =>
      l.map fun m => (ofMaterial m).ex2.map fun e => e.intParam "AlphaMode".toList) = some [none, some 3] := by decide +kernel

/-- The hypotheses of `alpha_rules` for the second. -/
example : isGlass glass.name = true ∧ isSkin glass.name = false := by decide +kernel

/-- A value that is no number ends the program. -/
example : alphaOverrides halfOnly [(isSkin, "half".toList)] [skin, glass] = none := by decide +kernel

/-- `-unlit`, and `-hidemat` of the same material. -/
example : (unlit isGlass [skin, glass]).map (fun m => (m.shader, m.ex2.isSome)) = [(0, false), (1, false)] ∧
    (materialMap (fun _ => true) (hideMaterials isSkin [skin, glass])) = [(1, 0)] := by decide +kernel

/-- `unlit_alpha_false`: a mask is set. -/
example : ∃ x', alphaRule halfOnly "mask".toList glass = some x' ∧ x'.ex2.isSome = true := ⟨_, rfl, rfl⟩

end Verif.Cmd
