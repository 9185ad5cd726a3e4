import Verif.Gltf.Material
import Mathlib.Algebra.Order.Field.Basic
import Mathlib.Data.List.Nodup
import Mathlib.Data.Rat.Defs
import Mathlib.Algebra.Order.Ring.Rat

/-! Properties C128 (emission), C129 (textures), C130 (extensions), C131 and C132 (alpha modes), C133 and C134
(materials of glTF files). -/

namespace Verif.Gltf

open Verif.Geom
open Verif.Mqo (Str Param)

variable {F : Type}

/-! ### Emission -/

section emission

variable [Field F] [LinearOrder F] [IsStrictOrderedRing F] [FloatOps F]

theorem gmax_eq (hlt : ∀ a b : F, FloatOps.lt a b = decide (a < b)) (a b : F) : gmax a b = max a b := by
  unfold gmax
  rw [hlt]
  by_cases h : b < a
  · simp [h, max_eq_left h.le]
  · simp [h, max_eq_right (not_lt.mp h)]

/-- The light a material of an MQO document gives off. -/
def sourceEmission (m : GMaterial F) : Vec3 F :=
  match m.emissionColor with
  | some c => c
  | none => if 0 < m.emission then ⟨m.emission, m.emission, m.emission⟩ else ⟨0, 0, 0⟩

/-- C128. The exported emission has no component above 1; it is the emission of the source divided by one
number, which is 1 if the source has no component above 1, and else the largest component. -/
theorem emissive_spec (hlt : ∀ a b : F, FloatOps.lt a b = decide (a < b)) (m : GMaterial F) :
    (emissiveFactor m).x ≤ 1 ∧ (emissiveFactor m).y ≤ 1 ∧ (emissiveFactor m).z ≤ 1 ∧
    ∃ s : F, 1 ≤ s ∧ (emissiveFactor m).scale s = sourceEmission m ∧
      (s = 1 ∨ s = (sourceEmission m).x ∨ s = (sourceEmission m).y ∨ s = (sourceEmission m).z) := by
  have key : ∀ v : Vec3 F, ∀ r : Vec3 F,
      r = (if FloatOps.lt 1 (gmax (gmax v.x v.y) v.z) then
        (⟨v.x / gmax (gmax v.x v.y) v.z, v.y / gmax (gmax v.x v.y) v.z, v.z / gmax (gmax v.x v.y) v.z⟩ : Vec3 F) else v) →
      r.x ≤ 1 ∧ r.y ≤ 1 ∧ r.z ≤ 1 ∧ ∃ s : F, 1 ≤ s ∧ r.scale s = v ∧ (s = 1 ∨ s = v.x ∨ s = v.y ∨ s = v.z) := by
    intro v r hr
    rw [gmax_eq hlt, gmax_eq hlt, hlt] at hr
    have hx : v.x ≤ max (max v.x v.y) v.z := (le_max_left _ _).trans (le_max_left _ _)
    have hy : v.y ≤ max (max v.x v.y) v.z := (le_max_right _ _).trans (le_max_left _ _)
    have hz : v.z ≤ max (max v.x v.y) v.z := le_max_right _ _
    have hs : max (max v.x v.y) v.z = v.x ∨ max (max v.x v.y) v.z = v.y ∨ max (max v.x v.y) v.z = v.z := by
      rcases max_choice (max v.x v.y) v.z with h | h
      · rcases max_choice v.x v.y with h' | h'
        · left; rw [h, h']
        · right; left; rw [h, h']
      · right; right; exact h
    generalize max (max v.x v.y) v.z = s at *
    by_cases h : 1 < s
    · simp only [h, decide_true, if_true] at hr
      have hp : 0 < s := zero_lt_one.trans h
      subst hr
      refine ⟨(div_le_one hp).mpr hx, (div_le_one hp).mpr hy, (div_le_one hp).mpr hz, s, h.le, ?_, Or.inr hs⟩
      obtain ⟨a, b, c⟩ := v
      simp only [Vec3.scale, div_mul_cancel₀ _ hp.ne']
    · simp only [h, decide_false, Bool.false_eq_true, if_false] at hr
      have h' := not_lt.mp h
      subst hr
      refine ⟨hx.trans h', hy.trans h', hz.trans h', 1, le_refl _, ?_, Or.inl rfl⟩
      obtain ⟨a, b, c⟩ := r
      simp only [Vec3.scale, mul_one]
  unfold emissiveFactor sourceEmission
  cases m.emissionColor with
  | some c => exact key c _ rfl
  | none =>
    simp only [hlt]
    by_cases h : 0 < m.emission
    · simp only [h, decide_true, if_true]
      exact key ⟨m.emission, m.emission, m.emission⟩ _ (by rw [hlt])
    · simp only [h, decide_false, Bool.false_eq_true, if_false]
      exact ⟨zero_le_one, zero_le_one, zero_le_one, 1, le_refl _, by simp [Vec3.scale], Or.inl rfl⟩

end emission

/-! ### Textures -/

/-- What a reference to the file `name` must be: nothing without name or if it can not be read, else the number
of the texture of that file. -/
def TexRef (load : Str → Bool) (ts : List Str) (name : Str) (r : Option Nat) : Prop :=
  if name ≠ [] ∧ load name = true then ∃ k : Nat, r = some k ∧ ts[k]? = some name else r = none

/-- The textures of a document: each file once, only files that can be read. -/
structure TexOk (load : Str → Bool) (ts : List Str) : Prop where
  once : ts.Nodup
  read : ∀ n ∈ ts, n ≠ [] ∧ load n = true

theorem TexRef.mono {load : Str → Bool} {ts ts' : List Str} {name : Str} {r : Option Nat} (h : ts <+: ts')
    (hr : TexRef load ts name r) : TexRef load ts' name r := by
  unfold TexRef at *
  split
  · rename_i hc
    rw [if_pos hc] at hr
    obtain ⟨k, hk, ht⟩ := hr
    obtain ⟨l, rfl⟩ := h
    exact ⟨k, hk, by rw [List.getElem?_append_left (List.getElem?_eq_some_iff.mp ht).1, ht]⟩
  · rename_i hc
    rw [if_neg hc] at hr
    exact hr

theorem tryAddTexture_spec (load : Str → Bool) (name : Str) (ts : List Str) (h : TexOk load ts) :
    ts <+: (tryAddTexture load name ts).2 ∧ TexOk load (tryAddTexture load name ts).2 ∧
      TexRef load (tryAddTexture load name ts).2 name (tryAddTexture load name ts).1 := by
  unfold tryAddTexture
  by_cases hn : name = []
  · rw [if_pos hn]
    exact ⟨List.prefix_refl _, h, by simp [TexRef, hn]⟩
  · rw [if_neg hn]
    cases hf : ts.findIdx? (· = name) with
    | some i =>
      obtain ⟨hi, hp, _⟩ := List.findIdx?_eq_some_iff_getElem.mp hf
      have hp' : ts[i] = name := by simpa using hp
      have hl := (h.read name (hp' ▸ List.getElem_mem hi)).2
      refine ⟨List.prefix_refl _, h, ?_⟩
      unfold TexRef
      rw [if_pos ⟨hn, hl⟩]
      exact ⟨i, rfl, by rw [List.getElem?_eq_getElem hi, hp']⟩
    | none =>
      have hnot : name ∉ ts := by
        intro hm
        have := List.findIdx?_eq_none_iff.mp hf name hm
        simp at this
      by_cases hl : load name = true
      · simp only [hl, if_true]
        refine ⟨List.prefix_append _ _, ⟨?_, ?_⟩, ?_⟩
        · rw [List.nodup_append]
          refine ⟨h.once, by simp, ?_⟩
          intro a ha b hb hab
          rw [List.mem_singleton.mp hb] at hab
          exact hnot (hab ▸ ha)
        · intro n hm
          rcases List.mem_append.mp hm with hm | hm
          · exact h.read n hm
          · rw [List.mem_singleton.mp hm]; exact ⟨hn, hl⟩
        · unfold TexRef
          rw [if_pos ⟨hn, hl⟩]
          exact ⟨ts.length, rfl, by simp⟩
      · simp only [hl, Bool.false_eq_true, if_false]
        refine ⟨List.prefix_refl _, h, ?_⟩
        unfold TexRef
        rw [if_neg fun c => hl c.2]

section fields

variable [Zero F] [DecidableEq F]

/-- What an entry of an extension must be. -/
def FieldIs (load : Str → Bool) (e : GEx2 F) (ts : List Str) (f : ExtField) (x : String × ExtValue F) : Prop :=
  match f with
  | .num key p => e.floatParam p.toList ≠ 0 ∧ x = (key, .num (e.floatParam p.toList))
  | .color key p => ∃ c, e.colorParam p.toList = some c ∧ x = (key, .color (c.take 3))
  | .tex key m => ∃ k, TexRef load ts (e.mappingOf m.toList) (some k) ∧ x = (key, .tex k)

omit [DecidableEq F] in
theorem FieldIs.mono {load : Str → Bool} {e : GEx2 F} {ts ts' : List Str} (h : ts <+: ts') (hok : TexOk load ts')
    (f : ExtField) (x : String × ExtValue F) (hr : ∀ key m, f = .tex key m → ∃ r, TexRef load ts (e.mappingOf m.toList) r) :
    FieldIs load e ts f x ↔ FieldIs load e ts' f x := by
  cases f with
  | num key p => exact Iff.rfl
  | color key p => exact Iff.rfl
  | tex key m =>
    constructor
    · rintro ⟨k, hk, hx⟩; exact ⟨k, hk.mono h, hx⟩
    · rintro ⟨k, hk, hx⟩
      refine ⟨k, ?_, hx⟩
      obtain ⟨r, hr⟩ := hr key m rfl
      unfold TexRef at hk hr ⊢
      split
      · rename_i hc
        rw [if_pos hc] at hk hr
        obtain ⟨k1, e1, h1⟩ := hk
        obtain ⟨k2, e2, h2⟩ := hr
        cases e1
        obtain ⟨l, rfl⟩ := h
        have h2' : (ts ++ l)[k2]? = some (e.mappingOf m.toList) := by
          rw [List.getElem?_append_left (List.getElem?_eq_some_iff.mp h2).1, h2]
        have i1 := (List.getElem?_eq_some_iff.mp h1)
        have i2 := (List.getElem?_eq_some_iff.mp h2')
        have : k = k2 := (List.Nodup.getElem_inj_iff hok.once).mp (i1.2.trans i2.2.symm)
        exact ⟨k, rfl, this ▸ h2⟩
      · rename_i hc
        rw [if_neg hc] at hk
        cases hk

theorem extFields_spec (load : Str → Bool) (e : GEx2 F) (fs : List ExtField) (ts : List Str) (h : TexOk load ts)
    (l : List (String × ExtValue F)) (ts' : List Str) (hr : extFields load e fs ts = some (l, ts')) :
    ts <+: ts' ∧ TexOk load ts' ∧ (∀ x, x ∈ l ↔ ∃ f ∈ fs, FieldIs load e ts' f x) ∧
      ∀ key m, .tex key m ∈ fs → ∃ r, TexRef load ts' (e.mappingOf m.toList) r := by
  induction fs generalizing ts l ts' with
  | nil =>
    simp only [extFields, Option.some.injEq, Prod.mk.injEq] at hr
    obtain ⟨rfl, rfl⟩ := hr
    exact ⟨List.prefix_refl _, h, by simp, by simp⟩
  | cons f fs ih =>
    cases f with
    | num key p =>
      unfold extFields at hr
      simp only at hr
      cases h1 : extFields load e fs ts with
      | none => rw [h1] at hr; cases hr
      | some y =>
        obtain ⟨l1, t1⟩ := y
        rw [h1] at hr
        simp only [Option.some.injEq, Prod.mk.injEq] at hr
        obtain ⟨hl, rfl⟩ := hr
        obtain ⟨a, b, c, d⟩ := ih ts h l1 t1 h1
        refine ⟨a, b, ?_, ?_⟩
        · intro x
          simp only [List.exists_mem_cons_iff, ← c x]
          subst hl
          by_cases hv : e.floatParam p.toList = 0 <;> simp [FieldIs, hv]
        · intro key m hm
          rcases List.mem_cons.mp hm with hm | hm
          · cases hm
          · exact d key m hm
    | color key p =>
      unfold extFields at hr
      cases hc : e.colorParam p.toList with
      | none =>
        rw [hc] at hr
        obtain ⟨a, b, c, d⟩ := ih ts h l ts' hr
        refine ⟨a, b, ?_, ?_⟩
        · intro x
          simp only [List.exists_mem_cons_iff, ← c x]
          simp [FieldIs, hc]
        · intro key m hm
          rcases List.mem_cons.mp hm with hm | hm
          · cases hm
          · exact d key m hm
      | some col =>
        rw [hc] at hr
        simp only at hr
        split at hr
        · cases hr
        · cases h1 : extFields load e fs ts with
          | none => rw [h1] at hr; cases hr
          | some y =>
            obtain ⟨l1, t1⟩ := y
            rw [h1] at hr
            simp only [Option.some.injEq, Prod.mk.injEq] at hr
            obtain ⟨hl, rfl⟩ := hr
            obtain ⟨a, b, c, d⟩ := ih ts h l1 t1 h1
            refine ⟨a, b, ?_, ?_⟩
            · intro x
              simp only [List.exists_mem_cons_iff, ← c x]
              subst hl
              simp [FieldIs, hc]
            · intro key m hm
              rcases List.mem_cons.mp hm with hm | hm
              · cases hm
              · exact d key m hm
    | tex key m =>
      unfold extFields at hr
      simp only at hr
      obtain ⟨p1, p2, p3⟩ := tryAddTexture_spec load (e.mappingOf m.toList) ts h
      generalize tryAddTexture load (e.mappingOf m.toList) ts = y at p1 p2 p3 hr
      cases h1 : extFields load e fs y.2 with
      | none => rw [h1] at hr; cases hr
      | some z =>
        obtain ⟨l1, t1⟩ := z
        rw [h1] at hr
        simp only [Option.some.injEq, Prod.mk.injEq] at hr
        obtain ⟨hl, rfl⟩ := hr
        obtain ⟨a, b, c, d⟩ := ih y.2 p2 l1 t1 h1
        have p4 := p3.mono a
        refine ⟨p1.trans a, b, ?_, ?_⟩
        · intro x
          simp only [List.exists_mem_cons_iff, ← c x]
          rw [← hl]
          rw [← FieldIs.mono a b (.tex key m) x (by intro k m' e'; cases e'; exact ⟨_, p3⟩)]
          cases hy : y.1 with
          | none =>
            have : ¬ FieldIs load e y.2 (.tex key m) x := by
              rintro ⟨k, hk, _⟩
              unfold TexRef at hk p3
              split at hk
              · rename_i hc
                rw [if_pos hc] at p3
                obtain ⟨k', hk', _⟩ := p3
                rw [hy] at hk'; cases hk'
              · cases hk
            simp [this]
          | some i =>
            have : FieldIs load e y.2 (.tex key m) x ↔ x = (key, .tex i) := by
              constructor
              · rintro ⟨k, hk, rfl⟩
                unfold TexRef at hk p3
                split at hk
                · rename_i hc
                  rw [if_pos hc] at p3
                  obtain ⟨k1, e1, h1⟩ := hk
                  obtain ⟨k2, e2, h2⟩ := p3
                  cases e1
                  rw [hy] at e2
                  cases e2
                  have i1 := (List.getElem?_eq_some_iff.mp h1)
                  have i2 := (List.getElem?_eq_some_iff.mp h2)
                  have : k = i := (List.Nodup.getElem_inj_iff p2.once).mp (i1.2.trans i2.2.symm)
                  rw [this]
                · cases hk
              · rintro rfl
                exact ⟨i, hy ▸ p3, rfl⟩
            simp [this]
        · intro key' m' hm
          rcases List.mem_cons.mp hm with hm | hm
          · cases hm; exact ⟨_, p4⟩
          · exact d key' m' hm

/-- What an exported extension must be. -/
def ExtIs (load : Str → Bool) (e : GEx2 F) (ts : List Str) (t : String × String × List ExtField)
    (x : String × List (String × ExtValue F)) : Prop :=
  e.boolParam t.1.toList = true ∧ x.1 = t.2.1 ∧ (∀ y, y ∈ x.2 ↔ ∃ f ∈ t.2.2, FieldIs load e ts f y) ∧
    ∀ key m, .tex key m ∈ t.2.2 → ∃ r, TexRef load ts (e.mappingOf m.toList) r

omit [DecidableEq F] in
theorem ExtIs.mono {load : Str → Bool} {e : GEx2 F} {ts ts' : List Str} (h : ts <+: ts') (hok : TexOk load ts')
    {t : String × String × List ExtField} {x : String × List (String × ExtValue F)} (hx : ExtIs load e ts t x) :
    ExtIs load e ts' t x := by
  obtain ⟨a, b, c, d⟩ := hx
  refine ⟨a, b, ?_, fun key m hm => (d key m hm).imp fun r hr => hr.mono h⟩
  intro y
  rw [c y]
  refine exists_congr fun f => and_congr_right fun hf => ?_
  exact FieldIs.mono h hok f y (by rintro k m rfl; exact d k m hf)

theorem extLoop_spec (load : Str → Bool) (e : GEx2 F) (table : List (String × String × List ExtField)) (ts : List Str)
    (h : TexOk load ts) (l : List (String × List (String × ExtValue F))) (ts' : List Str)
    (hr : extLoop load e table ts = some (l, ts')) :
    ts <+: ts' ∧ TexOk load ts' ∧ (∀ x ∈ l, ∃ t ∈ table, ExtIs load e ts' t x) ∧
      l.map (·.1) = (table.filter fun t => e.boolParam t.1.toList).map (·.2.1) := by
  induction table generalizing ts l ts' with
  | nil =>
    simp only [extLoop, Option.some.injEq, Prod.mk.injEq] at hr
    obtain ⟨rfl, rfl⟩ := hr
    exact ⟨List.prefix_refl _, h, by simp, rfl⟩
  | cons t table ih =>
    obtain ⟨flag, name, fields⟩ := t
    unfold extLoop at hr
    by_cases hb : e.boolParam flag.toList = true
    · rw [if_pos hb] at hr
      cases h1 : extFields load e fields ts with
      | none => rw [h1] at hr; cases hr
      | some y =>
        obtain ⟨l1, t1⟩ := y
        rw [h1] at hr
        simp only at hr
        cases h2 : extLoop load e table t1 with
        | none => rw [h2] at hr; cases hr
        | some z =>
          obtain ⟨l2, t2⟩ := z
          rw [h2] at hr
          simp only [Option.some.injEq, Prod.mk.injEq] at hr
          obtain ⟨rfl, rfl⟩ := hr
          obtain ⟨a1, b1, c1, d1⟩ := extFields_spec load e fields ts h l1 t1 h1
          obtain ⟨a2, b2, c2, d2⟩ := ih t1 b1 l2 t2 h2
          refine ⟨a1.trans a2, b2, ?_, ?_⟩
          · intro x hx
            rcases List.mem_cons.mp hx with rfl | hx
            · exact ⟨_, List.mem_cons_self, ExtIs.mono a2 b2 ⟨hb, rfl, c1, d1⟩⟩
            · obtain ⟨t, ht, hx⟩ := c2 x hx
              exact ⟨t, List.mem_cons_of_mem _ ht, hx⟩
          · simp [hb, d2]
    · rw [if_neg hb] at hr
      obtain ⟨a, b, c, d⟩ := ih ts h l ts' hr
      refine ⟨a, b, ?_, ?_⟩
      · intro x hx
        obtain ⟨t, ht, hx⟩ := c x hx
        exact ⟨t, List.mem_cons_of_mem _ ht, hx⟩
      · simp [hb, d]

end fields

/-! ### Materials -/

section materials

variable [Zero F] [One F] [Div F] [DecidableEq F] [FloatOps F]

/-- Is the shader that of glTF? -/
def IsGltf (m : GMaterial F) (e : GEx2 F) : Prop := m.ex2 = some e ∧ e.shaderName = "glTF".toList

/-- Is the material to be drawn without light? -/
def WantsUnlit (opt : MatOptions F) (m : GMaterial F) : Prop :=
  opt.forceUnlit = true ∨ m.shaderName = "Constant".toList ∨ ∃ e, IsGltf m e ∧
    (e.boolParam "Extensions.Unlit".toList = true ∨
      (e.floatParam "Metallic".toList = 0 ∧ e.floatParam "Roughness".toList = 1))

/-- The references and extensions of an exported material. -/
structure MatRefs (opt : MatOptions F) (load : Str → Bool) (ts : List Str) (m : GMaterial F) (o : OutMaterial F) :
    Prop where
  base : TexRef load ts m.texture o.baseTexture
  normal : TexRef load ts m.bumpTexture o.normalTexture
  ext : ∀ x ∈ o.extensions, x = (unlitName, []) ∨ ∃ e, IsGltf m e ∧ ∃ t ∈ extTable, ExtIs load e ts t x
  all : ∀ e, IsGltf m e → ∀ t ∈ extTable, e.boolParam t.1.toList = true → ∃ x ∈ o.extensions, x.1 = t.2.1
  unlit : (∃ x ∈ o.extensions, x.1 = unlitName) ↔ WantsUnlit opt m
  keys : (o.extensions.map (·.1)).Nodup

omit [One F] [Div F] [FloatOps F] in
theorem MatRefs.mono {opt : MatOptions F} {load : Str → Bool} {ts ts' : List Str} {m : GMaterial F} {o : OutMaterial F}
    [One F] (h : ts <+: ts') (hok : TexOk load ts') (hr : MatRefs opt load ts m o) : MatRefs opt load ts' m o where
  base := hr.base.mono h
  normal := hr.normal.mono h
  ext := fun x hx => (hr.ext x hx).imp id fun ⟨e, he, t, ht, hi⟩ => ⟨e, he, t, ht, hi.mono h hok⟩
  all := hr.all
  unlit := hr.unlit
  keys := hr.keys

theorem extTable_names : (unlitName :: extTable.map (·.2.1)).Nodup := by decide +kernel

theorem addUnlit_eq {α : Type} (l : List (String × List α)) (h : ∀ x ∈ l, x.1 ≠ unlitName) :
    addUnlit l = (unlitName, []) :: l := by
  unfold addUnlit
  rw [if_neg]
  intro hc
  obtain ⟨x, hx, hn⟩ := List.any_eq_true.mp hc
  exact h x hx (by simpa using hn)

theorem addUnlit_twice {α : Type} (l : List (String × List α)) : addUnlit ((unlitName, []) :: l) = (unlitName, []) :: l := by
  simp [addUnlit]

/-- The last steps of `exportMaterial`. -/
theorem exportMaterial_finish (opt : MatOptions F) (load : Str → Bool) (m : GMaterial F) (ts : List Str)
    (h : TexOk load ts) (out : OutMaterial F)
    (exts : List (String × List (String × ExtValue F))) (u : Prop) [Decidable u]
    (he : out.extensions = if u then addUnlit exts else exts)
    (hne : ∀ x ∈ exts, x.1 ≠ unlitName) (hnd : (exts.map (·.1)).Nodup)
    (hext : ∀ x ∈ exts, ∃ e, IsGltf m e ∧ ∃ t ∈ extTable, ExtIs load e ts t x)
    (hall : ∀ e, IsGltf m e → ∀ t ∈ extTable, e.boolParam t.1.toList = true → ∃ x ∈ exts, x.1 = t.2.1)
    (hu : WantsUnlit opt m ↔ opt.forceUnlit = true ∨ m.shaderName = "Constant".toList ∨ u)
    (o : OutMaterial F) (ts' : List Str) (hr : (o, ts') = finishMaterial opt load m out ts) :
    ts <+: ts' ∧ TexOk load ts' ∧ MatRefs opt load ts' m o := by
  classical
  simp only [finishMaterial, Prod.mk.injEq] at hr
  obtain ⟨ho, ht⟩ := hr
  obtain ⟨a1, a2, a3⟩ := tryAddTexture_spec load m.texture ts h
  obtain ⟨b1, b2, b3⟩ := tryAddTexture_spec load m.bumpTexture _ a2
  rw [← ht] at b1 b2 b3
  have hpre := a1.trans b1
  have hfin : o.extensions = if WantsUnlit opt m then (unlitName, []) :: exts else exts := by
    have : o.extensions = if opt.forceUnlit = true ∨ m.shaderName = "Constant".toList then
        addUnlit out.extensions else out.extensions := by rw [ho]
    rw [this, he]
    by_cases hf : opt.forceUnlit = true ∨ m.shaderName = "Constant".toList
    · have hw : WantsUnlit opt m := hu.mpr (by rw [← or_assoc]; exact Or.inl hf)
      rw [if_pos hf, if_pos hw]
      by_cases hu' : u
      · rw [if_pos hu', addUnlit_eq exts hne, addUnlit_twice]
      · rw [if_neg hu', addUnlit_eq exts hne]
    · rw [if_neg hf]
      by_cases hu' : u
      · rw [if_pos hu', if_pos (hu.mpr (Or.inr (Or.inr hu'))), addUnlit_eq exts hne]
      · rw [if_neg hu', if_neg]
        intro hw
        rcases hu.mp hw with h | h | h
        · exact hf (Or.inl h)
        · exact hf (Or.inr h)
        · exact hu' h
  refine ⟨hpre, b2, ?_, ?_, ?_, ?_, ?_, ?_⟩
  · have e : o.baseTexture = (tryAddTexture load m.texture ts).1 := by rw [ho]
    rw [e]; exact a3.mono b1
  · have e : o.normalTexture = (tryAddTexture load m.bumpTexture (tryAddTexture load m.texture ts).2).1 := by rw [ho]
    rw [e]; exact b3
  · intro x hx
    rw [hfin] at hx
    have hx' : x = (unlitName, []) ∨ x ∈ exts := by
      split at hx
      · exact List.mem_cons.mp hx
      · exact Or.inr hx
    refine hx'.imp id fun hx => ?_
    obtain ⟨e, he, t, ht, hi⟩ := hext x hx
    exact ⟨e, he, t, ht, hi.mono hpre b2⟩
  · intro e he t ht hb
    obtain ⟨x, hx, hn⟩ := hall e he t ht hb
    refine ⟨x, ?_, hn⟩
    rw [hfin]
    split
    · exact List.mem_cons_of_mem _ hx
    · exact hx
  · rw [hfin]
    split
    · rename_i hw
      exact ⟨fun _ => hw, fun _ => ⟨_, List.mem_cons_self, rfl⟩⟩
    · rename_i hw
      exact ⟨fun ⟨x, hx, hn⟩ => absurd hn (hne x hx), fun h => absurd h hw⟩
  · rw [hfin]
    split
    · rw [List.map_cons, List.nodup_cons]
      refine ⟨?_, hnd⟩
      intro hm
      obtain ⟨x, hx, hn⟩ := List.mem_map.mp hm
      exact hne x hx hn
    · exact hnd

theorem exportMaterial_refs (opt : MatOptions F) (load : Str → Bool) (alpha : Bool) (m : GMaterial F) (ts : List Str)
    (h : TexOk load ts) (o : OutMaterial F) (ts' : List Str)
    (hr : exportMaterial opt load alpha m ts = some (o, ts')) :
    ts <+: ts' ∧ TexOk load ts' ∧ MatRefs opt load ts' m o := by
  unfold exportMaterial at hr
  rw [Option.map_eq_some_iff] at hr
  obtain ⟨⟨out, t1⟩, hs, hr⟩ := hr
  have plain : (∀ e, ¬ IsGltf m e) → t1 = ts → out = plainShader opt alpha m (plainMaterial opt m) →
      ts <+: ts' ∧ TexOk load ts' ∧ MatRefs opt load ts' m o := by
    intro hno ht ho
    subst ht
    have hex : out.extensions = [] := by rw [ho]; unfold plainShader; split <;> rfl
    refine exportMaterial_finish opt load m t1 h out [] False (by simpa using hex) (by simp) (by simp) (by simp)
      (fun e he => absurd he (hno e)) ?_ o ts' hr.symm
    unfold WantsUnlit
    constructor
    · rintro (a | a | ⟨e, he, _⟩)
      · exact Or.inl a
      · exact Or.inr (Or.inl a)
      · exact absurd he (hno e)
    · rintro (a | a | a)
      · exact Or.inl a
      · exact Or.inr (Or.inl a)
      · cases a
  unfold shadeMaterial at hs
  cases hm : m.ex2 with
  | none =>
    rw [hm] at hs
    simp only [Option.some.injEq, Prod.mk.injEq] at hs
    exact plain (fun e he => by rw [IsGltf, hm] at he; cases he.1) hs.2.symm hs.1.symm
  | some e =>
    rw [hm] at hs
    simp only at hs
    by_cases hg : e.shaderName = "glTF".toList
    · rw [if_pos hg] at hs
      unfold gltfShader at hs
      cases hl : extLoop load e extTable ts with
      | none => rw [hl] at hs; cases hs
      | some y =>
        obtain ⟨exts, t2⟩ := y
        rw [hl] at hs
        simp only [Option.some.injEq, Prod.mk.injEq] at hs
        obtain ⟨ho, rfl⟩ := hs
        obtain ⟨a, b, c, d⟩ := extLoop_spec load e extTable ts h exts t2 hl
        have hsub : ∀ x ∈ exts, x.1 ∈ extTable.map (·.2.1) := by
          intro x hx
          have : x.1 ∈ exts.map (·.1) := List.mem_map.mpr ⟨x, hx, rfl⟩
          rw [d] at this
          obtain ⟨t, ht, hn⟩ := List.mem_map.mp this
          exact List.mem_map.mpr ⟨t, (List.mem_filter.mp ht).1, hn⟩
        have hnames := List.nodup_cons.mp extTable_names
        have uniq : ∀ e', IsGltf m e' ↔ e' = e := by
          intro e'
          unfold IsGltf
          rw [hm]
          constructor
          · rintro ⟨h1, _⟩; exact (Option.some.inj h1).symm
          · rintro rfl; exact ⟨rfl, hg⟩
        obtain ⟨f1, f2, f3⟩ := exportMaterial_finish opt load m t2 b out exts
          (e.boolParam "Extensions.Unlit".toList = true ∨
            (e.floatParam "Metallic".toList = 0 ∧ e.floatParam "Roughness".toList = 1)) (by rw [← ho])
          (fun x hx hn => hnames.1 (hn ▸ hsub x hx))
          (by
            rw [d]
            exact (hnames.2.sublist (List.Sublist.map _ List.filter_sublist)))
          (fun x hx => ⟨e, (uniq e).mpr rfl, c x hx⟩)
          (by
            intro e' he' t ht hb
            rw [(uniq e').mp he'] at hb
            have : t.2.1 ∈ exts.map (·.1) := by
              rw [d]
              exact List.mem_map.mpr ⟨t, List.mem_filter.mpr ⟨ht, hb⟩, rfl⟩
            obtain ⟨x, hx, hn⟩ := List.mem_map.mp this
            exact ⟨x, hx, hn⟩)
          (by
            unfold WantsUnlit
            simp only [uniq, exists_eq_left])
          o ts' hr.symm
        exact ⟨a.trans f1, f2, f3⟩
    · rw [if_neg hg] at hs
      simp only [Option.some.injEq, Prod.mk.injEq] at hs
      refine plain (fun e' he => ?_) hs.2.symm hs.1.symm
      rw [IsGltf, hm] at he
      exact hg (Option.some.inj he.1 ▸ he.2)

theorem exportMaterials_refs (opt : MatOptions F) (load : Str → Bool) (ms : List (GMaterial F × Bool)) (ts : List Str)
    (h : TexOk load ts) (os : List (OutMaterial F)) (ts' : List Str)
    (hr : exportMaterials opt load ms ts = some (os, ts')) :
    ts <+: ts' ∧ TexOk load ts' ∧ List.Forall₂ (fun m o => MatRefs opt load ts' m.1 o) ms os := by
  induction ms generalizing ts os ts' with
  | nil =>
    simp only [exportMaterials, Option.some.injEq, Prod.mk.injEq] at hr
    obtain ⟨rfl, rfl⟩ := hr
    exact ⟨List.prefix_refl _, h, .nil⟩
  | cons p ms ih =>
    obtain ⟨m, a⟩ := p
    unfold exportMaterials at hr
    cases h1 : exportMaterial opt load a m ts with
    | none => rw [h1] at hr; cases hr
    | some y =>
      obtain ⟨o1, t1⟩ := y
      rw [h1] at hr
      simp only at hr
      cases h2 : exportMaterials opt load ms t1 with
      | none => rw [h2] at hr; cases hr
      | some z =>
        obtain ⟨os2, t2⟩ := z
        rw [h2] at hr
        simp only [Option.some.injEq, Prod.mk.injEq] at hr
        obtain ⟨rfl, rfl⟩ := hr
        obtain ⟨a1, a2, a3⟩ := exportMaterial_refs opt load a m ts h o1 t1 h1
        obtain ⟨b1, b2, b3⟩ := ih t1 a2 os2 t2 h2
        exact ⟨a1.trans b1, b2, .cons (a3.mono b1 b2) b3⟩

/-- C129 and C130. In an exported document each image is stored once; base and normal textures of each material
are those of the files its source names, and missing exactly if the file can not be read; the extensions
are exactly those switched on, with the numbers, colors and textures of the source; a material is unlit
exactly if that is wanted. -/
theorem materials_refs (opt : MatOptions F) (load : Str → Bool) (ms : List (GMaterial F × Bool))
    (os : List (OutMaterial F)) (ts : List Str) (hr : exportMaterials opt load ms [] = some (os, ts)) :
    ts.Nodup ∧ (∀ n ∈ ts, load n = true) ∧ List.Forall₂ (fun m o => MatRefs opt load ts m.1 o) ms os := by
  obtain ⟨_, b, c⟩ := exportMaterials_refs opt load ms [] ⟨List.nodup_nil, by simp⟩ os ts hr
  exact ⟨b.once, fun n hn => (b.read n hn).2, c⟩

omit [Zero F] [One F] [Div F] [DecidableEq F] in
theorem plainShader_fields (opt : MatOptions F) (alpha : Bool) (m : GMaterial F) (x : OutMaterial F) :
    plainShader opt alpha m x = { x with
      alphaMode := if FloatOps.lt m.color.w opt.limit || (opt.detectAlpha && alpha) then .blend else x.alphaMode } := by
  unfold plainShader
  split <;> rfl

theorem mode_cases (n : Int) :
    ((if n = 2 then AlphaMode.mask else if n = 3 then .blend else .opaque) = .mask ↔ n = 2) ∧
    ((if n = 2 then AlphaMode.mask else if n = 3 then .blend else .opaque) = .blend ↔ n = 3) := by
  by_cases h2 : n = 2
  · subst h2; decide
  · by_cases h3 : n = 3
    · subst h3; decide
    · simp [h2, h3]

/-- The numbers of an exported material (with C131 and C133). Name, color and sides are those of the source. With
the glTF shader metallic, roughness and alpha mode are the parameters of the shader; with other shaders
the material is blended exactly if the color is transparent or transparency was found in the texture. -/
theorem material_fields (opt : MatOptions F) (load : Str → Bool) (alpha : Bool) (m : GMaterial F) (ts : List Str)
    (o : OutMaterial F) (ts' : List Str) (hr : exportMaterial opt load alpha m ts = some (o, ts')) :
    o.name = m.name ∧ o.baseColor = m.color ∧ o.doubleSided = m.doubleSided ∧ o.emissive = emissiveFactor m ∧
    (∀ e, IsGltf m e → o.metallic = e.floatParam "Metallic".toList ∧ o.roughness = e.floatParam "Roughness".toList ∧
      (o.alphaMode = .mask ↔ e.intParam "AlphaMode".toList = 2) ∧
      (o.alphaMode = .blend ↔ e.intParam "AlphaMode".toList = 3) ∧
      (e.intParam "AlphaMode".toList = 2 → o.alphaCutoff = some (e.floatParam "AlphaCutOff".toList))) ∧
    ((∀ e, ¬ IsGltf m e) → o.metallic = m.specular ∧ o.roughness = opt.rough ∧
      (o.alphaMode = .blend ↔ FloatOps.lt m.color.w opt.limit = true ∨ (opt.detectAlpha = true ∧ alpha = true)) ∧
      o.alphaMode ≠ .mask) := by
  unfold exportMaterial at hr
  rw [Option.map_eq_some_iff] at hr
  obtain ⟨⟨out, t1⟩, hs, hr⟩ := hr
  simp only [finishMaterial, Prod.mk.injEq] at hr
  obtain ⟨ho, -⟩ := hr
  have plain : (∀ e, ¬ IsGltf m e) → out = plainShader opt alpha m (plainMaterial opt m) →
    o.name = m.name ∧ o.baseColor = m.color ∧ o.doubleSided = m.doubleSided ∧ o.emissive = emissiveFactor m ∧
    (∀ e, IsGltf m e → o.metallic = e.floatParam "Metallic".toList ∧ o.roughness = e.floatParam "Roughness".toList ∧
      (o.alphaMode = .mask ↔ e.intParam "AlphaMode".toList = 2) ∧
      (o.alphaMode = .blend ↔ e.intParam "AlphaMode".toList = 3) ∧
      (e.intParam "AlphaMode".toList = 2 → o.alphaCutoff = some (e.floatParam "AlphaCutOff".toList))) ∧
    ((∀ e, ¬ IsGltf m e) → o.metallic = m.specular ∧ o.roughness = opt.rough ∧
      (o.alphaMode = .blend ↔ FloatOps.lt m.color.w opt.limit = true ∨ (opt.detectAlpha = true ∧ alpha = true)) ∧
      o.alphaMode ≠ .mask) := by
    intro hno h
    rw [plainShader_fields] at h
    subst ho h
    refine ⟨rfl, rfl, rfl, rfl, fun e he => absurd he (hno e), fun _ => ⟨rfl, rfl, ?_, ?_⟩⟩
    · simp only [plainMaterial]
      cases FloatOps.lt m.color.w opt.limit <;> cases opt.detectAlpha <;> cases alpha <;> simp
    · simp only [plainMaterial]
      split <;> simp
  unfold shadeMaterial at hs
  cases hm : m.ex2 with
  | none =>
    rw [hm] at hs
    simp only [Option.some.injEq, Prod.mk.injEq] at hs
    exact plain (fun e he => by rw [IsGltf, hm] at he; cases he.1) hs.1.symm
  | some e =>
    rw [hm] at hs
    simp only at hs
    by_cases hg : e.shaderName = "glTF".toList
    · rw [if_pos hg] at hs
      unfold gltfShader at hs
      cases hl : extLoop load e extTable ts with
      | none => rw [hl] at hs; cases hs
      | some y =>
        obtain ⟨exts, t2⟩ := y
        rw [hl] at hs
        simp only [Option.some.injEq, Prod.mk.injEq] at hs
        obtain ⟨hout, rfl⟩ := hs
        subst ho hout
        refine ⟨rfl, rfl, rfl, rfl, ?_, fun h => absurd ⟨hm, hg⟩ (h e)⟩
        intro e' he'
        rw [IsGltf, hm] at he'
        obtain rfl := Option.some.inj he'.1
        exact ⟨rfl, rfl, (mode_cases _).1, (mode_cases _).2, fun h => if_pos h⟩
    · rw [if_neg hg] at hs
      simp only [Option.some.injEq, Prod.mk.injEq] at hs
      refine plain (fun e' he => ?_) hs.1.symm
      rw [IsGltf, hm] at he
      exact hg (Option.some.inj he.1 ▸ he.2)

/-! ### Alpha modes -/

/-- The alpha mode with the number `mode` (mqo/mqo.go:154-158). -/
def modeOf (mode : Int) : AlphaMode := if mode = 2 then .mask else if mode = 3 then .blend else .opaque

omit [Zero F] [One F] [Div F] [DecidableEq F] [FloatOps F] in
theorem lookup_set {α : Type} (l : List (Str × α)) (k n : Str) (v : α) :
    ((k, v) :: l.filter fun p => p.1 ≠ k).lookup n = if n = k then some v else l.lookup n := by
  by_cases h : n = k
  · subst h; simp
  · rw [if_neg h, List.lookup_cons, show (n == k) = false by simpa using h]
    show (l.filter fun p => p.1 ≠ k).lookup n = l.lookup n
    induction l with
    | nil => rfl
    | cons p l ih =>
      by_cases hp : p.1 = k
      · rw [List.filter_cons_of_neg (by simpa using hp), ih]
        obtain ⟨a, b⟩ := p
        simp only at hp
        subst hp
        rw [List.lookup_cons, show (n == a) = false by simpa using h]
      · rw [List.filter_cons_of_pos (by simpa using hp)]
        obtain ⟨a, b⟩ := p
        rw [List.lookup_cons, List.lookup_cons, ih]

omit [Zero F] [One F] [Div F] [DecidableEq F] [FloatOps F] in
/-- The shader after setting the alpha mode. -/
theorem setAlphaMode_ex2 (m : GMaterial F) (mode : Int) :
    ∃ e, IsGltf (m.setAlphaMode mode) e ∧ e.intParam "AlphaMode".toList = mode ∧
      (∀ e0, IsGltf m e0 → e.mapping = e0.mapping ∧ ∀ n, n ≠ "AlphaMode".toList → e.params.lookup n = e0.params.lookup n) ∧
      ((∀ e0, ¬ IsGltf m e0) → ∀ n, n ≠ "AlphaMode".toList → e.params.lookup n = none) := by
  have key : ∀ e0 : GEx2 F, e0.shaderName = "glTF".toList →
      (m.setAlphaMode mode).ex2 = some { e0 with
        params := ("AlphaMode".toList, .param (.int mode)) :: e0.params.filter fun p => p.1 ≠ "AlphaMode".toList } →
      (IsGltf m e0 ∨ ((∀ e, ¬ IsGltf m e) ∧ e0.params = [])) →
      ∃ e, IsGltf (m.setAlphaMode mode) e ∧ e.intParam "AlphaMode".toList = mode ∧
      (∀ e0, IsGltf m e0 → e.mapping = e0.mapping ∧ ∀ n, n ≠ "AlphaMode".toList → e.params.lookup n = e0.params.lookup n) ∧
      ((∀ e0, ¬ IsGltf m e0) → ∀ n, n ≠ "AlphaMode".toList → e.params.lookup n = none) := by
    intro e0 hs he hk
    refine ⟨_, ⟨he, hs⟩, ?_, ?_, ?_⟩
    · unfold GEx2.intParam
      simp only [List.lookup_cons, beq_self_eq_true]
    · intro e1 h1
      rcases hk with hk | hk
      · have : e1 = e0 := Option.some.inj (h1.1.symm.trans hk.1)
        subst this
        refine ⟨rfl, fun n hn => ?_⟩
        simp only
        rw [lookup_set, if_neg hn]
      · exact absurd h1 (hk.1 e1)
    · intro hno n hn
      rcases hk with hk | hk
      · exact absurd hk (hno e0)
      · simp only
        rw [lookup_set, if_neg hn, hk.2]
        rfl
  cases hm : m.ex2 with
  | none =>
    exact key ⟨"glTF".toList, [], []⟩ rfl (by simp only [GMaterial.setAlphaMode, hm])
      (Or.inr ⟨fun e he => (by rw [IsGltf, hm] at he; cases he.1), rfl⟩)
  | some e =>
    by_cases hg : e.shaderName = "glTF".toList
    · exact key e hg (by simp only [GMaterial.setAlphaMode, hm, if_pos hg]) (Or.inl ⟨hm, hg⟩)
    · exact key ⟨"glTF".toList, [], []⟩ rfl (by simp only [GMaterial.setAlphaMode, hm, if_neg hg])
        (Or.inr ⟨fun e' he => (by rw [IsGltf, hm] at he; exact hg (Option.some.inj he.1 ▸ he.2)), rfl⟩)

/-- C131. A material whose alpha mode was set is exported with that mode. -/
theorem alpha_mode_set (opt : MatOptions F) (load : Str → Bool) (alpha : Bool) (m : GMaterial F) (mode : Int)
    (ts : List Str) (o : OutMaterial F) (ts' : List Str)
    (hr : exportMaterial opt load alpha (m.setAlphaMode mode) ts = some (o, ts')) : o.alphaMode = modeOf mode := by
  obtain ⟨e, he, hi, -, -⟩ := setAlphaMode_ex2 m mode
  obtain ⟨-, -, -, -, h, -⟩ := material_fields opt load alpha _ ts o ts' hr
  obtain ⟨-, -, h2, h3, -⟩ := h e he
  rw [hi] at h2 h3
  unfold modeOf
  split
  · exact h2.mpr ‹_›
  · split
    · exact h3.mpr ‹_›
    · rename_i a b
      cases ho : o.alphaMode with
      | «opaque» => rfl
      | mask => exact absurd (h2.mp ho) a
      | blend => exact absurd (h3.mp ho) b

/-- Two shaders that agree on everything the extensions use. -/
def Agree (e e' : GEx2 F) : Prop :=
  e.mapping = e'.mapping ∧ ∀ n, n ≠ "AlphaMode".toList → e.params.lookup n = e'.params.lookup n

omit [One F] [Div F] [DecidableEq F] [FloatOps F] in
theorem Agree.float {e e' : GEx2 F} (h : Agree e e') {n : Str} (hn : n ≠ "AlphaMode".toList) :
    e.floatParam n = e'.floatParam n := by
  unfold GEx2.floatParam; rw [h.2 n hn]

omit [Zero F] [One F] [Div F] [DecidableEq F] [FloatOps F] in
theorem Agree.bool {e e' : GEx2 F} (h : Agree e e') {n : Str} (hn : n ≠ "AlphaMode".toList) :
    e.boolParam n = e'.boolParam n := by
  unfold GEx2.boolParam; rw [h.2 n hn]

omit [Zero F] [One F] [Div F] [DecidableEq F] [FloatOps F] in
theorem Agree.color {e e' : GEx2 F} (h : Agree e e') {n : Str} (hn : n ≠ "AlphaMode".toList) :
    e.colorParam n = e'.colorParam n := by
  unfold GEx2.colorParam; rw [h.2 n hn]

/-- The parameter an entry uses. -/
def ExtField.param : ExtField → String
  | .num _ p => p
  | .color _ p => p
  | .tex _ _ => ""

omit [One F] [Div F] [FloatOps F] in
theorem extFields_congr (load : Str → Bool) {e e' : GEx2 F} (h : Agree e e') (fs : List ExtField) (ts : List Str)
    (hn : ∀ f ∈ fs, f.param.toList ≠ "AlphaMode".toList) : extFields load e fs ts = extFields load e' fs ts := by
  induction fs generalizing ts with
  | nil => rfl
  | cons f fs ih =>
    have ih' := fun ts => ih ts fun f hf => hn f (List.mem_cons_of_mem _ hf)
    have hf := hn f List.mem_cons_self
    cases f with
    | num key p =>
      have hf : p.toList ≠ "AlphaMode".toList := hf
      simp only [extFields, ih', h.float hf]
    | color key p =>
      have hf : p.toList ≠ "AlphaMode".toList := hf
      simp only [extFields, ih', h.color hf]
    | tex key m =>
      simp only [extFields, ih', GEx2.mappingOf, h.1]

omit [One F] [Div F] [FloatOps F] in
theorem extLoop_congr (load : Str → Bool) {e e' : GEx2 F} (h : Agree e e')
    (table : List (String × String × List ExtField)) (ts : List Str)
    (hn : ∀ t ∈ table, t.1.toList ≠ "AlphaMode".toList ∧ ∀ f ∈ t.2.2, f.param.toList ≠ "AlphaMode".toList) :
    extLoop load e table ts = extLoop load e' table ts := by
  induction table generalizing ts with
  | nil => rfl
  | cons t table ih =>
    obtain ⟨flag, name, fields⟩ := t
    have ih' := fun ts => ih ts fun f hf => hn f (List.mem_cons_of_mem _ hf)
    obtain ⟨h1, h2⟩ := hn _ List.mem_cons_self
    simp only [extLoop, ih', h.bool h1, extFields_congr load h fields _ h2]

theorem extTable_params : ∀ t ∈ extTable,
    t.1.toList ≠ "AlphaMode".toList ∧ ∀ f ∈ t.2.2, f.param.toList ≠ "AlphaMode".toList := by decide +kernel

/-- C131. For materials with the glTF shader setting the alpha mode changes nothing but the alpha mode and cutoff. -/
theorem alpha_mode_only_partial (opt : MatOptions F) (load : Str → Bool) (alpha : Bool) (m : GMaterial F) (mode : Int)
    (ts : List Str) (e : GEx2 F) (he : IsGltf m e) :
    ∃ c, exportMaterial opt load alpha (m.setAlphaMode mode) ts =
      (exportMaterial opt load alpha m ts).map fun x =>
        ({ x.1 with alphaMode := modeOf mode, alphaCutoff := c }, x.2) := by
  obtain ⟨e', he', hi, hg, -⟩ := setAlphaMode_ex2 m mode
  have ha : Agree e' e := hg e he
  refine ⟨if mode = 2 then some (e.floatParam "AlphaCutOff".toList) else none, ?_⟩
  have hloop := extLoop_congr load ha extTable ts extTable_params
  have hmet := ha.float (n := "Metallic".toList) (by decide)
  have hrou := ha.float (n := "Roughness".toList) (by decide)
  have hcut := ha.float (n := "AlphaCutOff".toList) (by decide)
  have hunl := ha.bool (n := "Extensions.Unlit".toList) (by decide)
  have hsn : (m.setAlphaMode mode).shaderName = m.shaderName := by
    unfold GMaterial.shaderName
    rw [he'.1, he.1]
    simp only [he'.2, he.2]
  have hplain : plainMaterial opt (m.setAlphaMode mode) = plainMaterial opt m := rfl
  unfold exportMaterial shadeMaterial
  rw [he'.1, he.1]
  simp only [he'.2, he.2, if_true]
  unfold gltfShader
  rw [hloop, hmet, hrou, hcut, hunl, hi, hplain]
  cases extLoop load e extTable ts with
  | none => rfl
  | some y =>
    simp only [Option.map_some, finishMaterial, hsn, modeOf]
    rfl

/-- C131, negation. For every other material the roughness is lost. -/
theorem alpha_mode_only_false (opt : MatOptions F) (load : Str → Bool) (alpha : Bool) (m : GMaterial F) (mode : Int)
    (ts : List Str) (hno : ∀ e, ¬ IsGltf m e) (o o' : OutMaterial F) (ts1 ts2 : List Str)
    (h1 : exportMaterial opt load alpha m ts = some (o, ts1))
    (h2 : exportMaterial opt load alpha (m.setAlphaMode mode) ts = some (o', ts2)) :
    o.metallic = m.specular ∧ o.roughness = opt.rough ∧ o'.metallic = 0 ∧ o'.roughness = 0 := by
  obtain ⟨e, he, -, -, hn⟩ := setAlphaMode_ex2 m mode
  obtain ⟨-, -, -, -, -, a⟩ := material_fields opt load alpha _ ts o ts1 h1
  obtain ⟨-, -, -, -, b, -⟩ := material_fields opt load alpha _ ts o' ts2 h2
  obtain ⟨a1, a2, -, -⟩ := a hno
  obtain ⟨b1, b2, -⟩ := b e he
  have z : ∀ n, n ≠ "AlphaMode".toList → e.floatParam n = 0 := by
    intro n hn'
    unfold GEx2.floatParam
    rw [hn hno n hn']
  exact ⟨a1, a2, b1.trans (z _ (by decide)), b2.trans (z _ (by decide))⟩

/-- C132. In mask mode the cutoff is the parameter `AlphaCutOff` of the shader. -/
theorem mask_cutoff_partial (opt : MatOptions F) (load : Str → Bool) (alpha : Bool) (m : GMaterial F) (e : GEx2 F)
    (he : IsGltf m e) (c : F) (hc : e.params.lookup "AlphaCutOff".toList = some (.param (.float c)))
    (hm : e.intParam "AlphaMode".toList = 2) (ts : List Str) (o : OutMaterial F) (ts' : List Str)
    (hr : exportMaterial opt load alpha m ts = some (o, ts')) : o.alphaMode = .mask ∧ o.alphaCutoff = some c := by
  obtain ⟨-, -, -, -, h, -⟩ := material_fields opt load alpha m ts o ts' hr
  obtain ⟨-, -, h2, -, h4⟩ := h e he
  refine ⟨h2.mpr hm, ?_⟩
  rw [h4 hm]
  unfold GEx2.floatParam
  rw [hc]

/-- C132, negation. Materials of glTF files, and all without the glTF shader, get the cutoff 0 when mask mode is
set, whatever their own cutoff was: with no alpha below 0, no part is hidden. -/
theorem mask_cutoff_false (opt : MatOptions F) (load : Str → Bool) (alpha : Bool) (m : GMaterial F)
    (hm : (∀ e, ¬ IsGltf m e) ∨ ∃ g : InMaterial F, m = importMaterial g) (ts : List Str) (o : OutMaterial F)
    (ts' : List Str) (hr : exportMaterial opt load alpha (m.setAlphaMode 2) ts = some (o, ts')) :
    o.alphaMode = .mask ∧ o.alphaCutoff = some 0 := by
  refine ⟨alpha_mode_set opt load alpha m 2 ts o ts' hr, ?_⟩
  obtain ⟨e, he, hi, hg, hn⟩ := setAlphaMode_ex2 m 2
  obtain ⟨-, -, -, -, h, -⟩ := material_fields opt load alpha _ ts o ts' hr
  obtain ⟨-, -, -, -, h4⟩ := h e he
  rw [h4 hi]
  have hl : e.params.lookup "AlphaCutOff".toList = none := by
    rcases hm with hm | ⟨g, rfl⟩
    · exact hn hm _ (by decide)
    · rw [(hg _ ⟨rfl, rfl⟩).2 _ (by decide)]
      cases g.pbr <;> rfl
  unfold GEx2.floatParam
  rw [hl]

end materials

/-! ### Materials of glTF files -/

section import_

variable [Field F] [LinearOrder F] [IsStrictOrderedRing F] [FloatOps F]

omit [LinearOrder F] [IsStrictOrderedRing F] [FloatOps F] in
theorem import_float (g : InMaterial F) (p : InPbr F) (hp : g.pbr = some p) (e : GEx2 F)
    (he : IsGltf (importMaterial g) e) :
    e.floatParam "Metallic".toList = p.metallic ∧ e.floatParam "Roughness".toList = p.roughness ∧
    e.intParam "AlphaMode".toList = 0 ∧ ∀ t, e.boolParam t = false := by
  have := he.1
  simp only [importMaterial, hp, Option.some.injEq] at this
  subst this
  refine ⟨rfl, rfl, rfl, ?_⟩
  intro t
  unfold GEx2.boolParam
  simp only [List.lookup_cons, List.cons_append, List.nil_append, List.lookup_nil]
  split
  · rename_i heq
    repeat' split at heq
    all_goals cases heq
  · rfl

/-- C133. A material of a glTF file with the block `pbrMetallicRoughness` keeps name, color, metallic and
roughness factors, sides and (for factors up to 1) emission when it is converted to MQO and exported
again, and the base texture if its image is a file that can be read. -/
theorem gltf_material_partial (hlt : ∀ a b : F, FloatOps.lt a b = decide (a < b)) (opt : MatOptions F)
    (load : Str → Bool) (alpha : Bool) (g : InMaterial F) (p : InPbr F) (hp : g.pbr = some p)
    (hx : g.emissive.x ≤ 1) (hy : g.emissive.y ≤ 1) (hz : g.emissive.z ≤ 1) (ts : List Str) (h : TexOk load ts)
    (o : OutMaterial F) (ts' : List Str)
    (hr : exportMaterial opt load alpha (importMaterial g) ts = some (o, ts')) :
    o.name = g.name ∧ o.baseColor = p.color ∧ o.metallic = p.metallic ∧ o.roughness = p.roughness ∧
    o.doubleSided = g.doubleSided ∧ o.emissive = g.emissive ∧
    (∀ n, p.texture = some n → n ≠ [] → load n = true → ∃ k : Nat, o.baseTexture = some k ∧ ts'[k]? = some n) ∧
    (p.texture = none → o.baseTexture = none) := by
  have hg : IsGltf (importMaterial g) _ := ⟨rfl, rfl⟩
  obtain ⟨a1, a2, a3, a4, a5, -⟩ := material_fields opt load alpha _ ts o ts' hr
  obtain ⟨b1, b2, -, -, -⟩ := a5 _ hg
  obtain ⟨c1, c2, -, -⟩ := import_float g p hp _ hg
  obtain ⟨-, -, hrefs⟩ := exportMaterial_refs opt load alpha _ ts h o ts' hr
  have ht : (importMaterial g).texture = p.texture.getD [] := by simp only [importMaterial, hp]
  have hbase := hrefs.base
  rw [ht] at hbase
  refine ⟨a1, ?_, b1.trans c1, b2.trans c2, a3, ?_, ?_, ?_⟩
  · rw [a2]; simp only [importMaterial, hp]
  · rw [a4]
    have hs : ¬ (1 : F) < max (max g.emissive.x g.emissive.y) g.emissive.z :=
      not_lt.mpr (max_le (max_le hx hy) hz)
    simp only [emissiveFactor, importMaterial, gmax_eq hlt, hlt, hs, decide_false, Bool.false_eq_true, if_false]
  · intro n hn h0 hl
    rw [hn] at hbase
    simp only [Option.getD_some, TexRef] at hbase
    rwa [if_pos ⟨h0, hl⟩] at hbase
  · intro hn
    rw [hn] at hbase
    simpa [TexRef] using hbase

omit [LinearOrder F] [IsStrictOrderedRing F] in
/-- C133, negation for the alpha mode: each material of a glTF file comes out opaque, whatever it was. -/
theorem gltf_alpha_false [DecidableEq F] (opt : MatOptions F) (load : Str → Bool) (alpha : Bool) (g : InMaterial F)
    (ts : List Str) (o : OutMaterial F) (ts' : List Str)
    (hr : exportMaterial opt load alpha (importMaterial g) ts = some (o, ts')) : o.alphaMode = .opaque := by
  have hg : IsGltf (importMaterial g) _ := ⟨rfl, rfl⟩
  obtain ⟨-, -, -, -, a5, -⟩ := material_fields opt load alpha _ ts o ts' hr
  obtain ⟨-, -, b3, b4, -⟩ := a5 _ hg
  cases ho : o.alphaMode with
  | «opaque» => rfl
  | mask => exact absurd (b3.mp ho) (by cases g.pbr <;> exact show ¬ (0 : Int) = 2 by decide)
  | blend => exact absurd (b4.mp ho) (by cases g.pbr <;> exact show ¬ (0 : Int) = 3 by decide)

omit [LinearOrder F] [IsStrictOrderedRing F] in
/-- C133, negation for materials without that block: by the glTF specification they are white, metallic 1 and
roughness 1; they come out black, fully transparent, metallic 0 and roughness 0. -/
theorem gltf_default_false [DecidableEq F] (opt : MatOptions F) (load : Str → Bool) (alpha : Bool) (g : InMaterial F)
    (hp : g.pbr = none) (ts : List Str) (o : OutMaterial F) (ts' : List Str)
    (hr : exportMaterial opt load alpha (importMaterial g) ts = some (o, ts')) :
    o.baseColor = ⟨0, 0, 0, 0⟩ ∧ o.metallic = 0 ∧ o.roughness = 0 := by
  have hg : IsGltf (importMaterial g) _ := ⟨rfl, rfl⟩
  obtain ⟨-, a2, -, -, a5, -⟩ := material_fields opt load alpha _ ts o ts' hr
  obtain ⟨b1, b2, -, -, -⟩ := a5 _ hg
  refine ⟨?_, b1.trans ?_, b2.trans ?_⟩
  · rw [a2]; simp only [importMaterial, hp]
  · simp only [hp]; rfl
  · simp only [hp]; rfl

omit [LinearOrder F] [IsStrictOrderedRing F] in
/-- C134. An imported glTF material is exported unlit exactly if that is forced, or it has metallic 0 and roughness
1; whether it was unlit in the file does not matter. -/
theorem gltf_unlit_partial [DecidableEq F] (opt : MatOptions F) (load : Str → Bool) (alpha : Bool) (g : InMaterial F)
    (p : InPbr F) (hp : g.pbr = some p) (ts : List Str) (h : TexOk load ts) (o : OutMaterial F) (ts' : List Str)
    (hr : exportMaterial opt load alpha (importMaterial g) ts = some (o, ts')) :
    (∃ x ∈ o.extensions, x.1 = unlitName) ↔ opt.forceUnlit = true ∨ (p.metallic = 0 ∧ p.roughness = 1) := by
  have hg : IsGltf (importMaterial g) _ := ⟨rfl, rfl⟩
  obtain ⟨-, -, hrefs⟩ := exportMaterial_refs opt load alpha _ ts h o ts' hr
  rw [hrefs.unlit]
  obtain ⟨c1, c2, -, c4⟩ := import_float g p hp _ hg
  unfold WantsUnlit
  have hsn : (importMaterial g).shaderName = "glTF".toList := rfl
  rw [hsn]
  constructor
  · rintro (a | a | ⟨e, he, ha⟩)
    · exact Or.inl a
    · exact absurd a (by decide)
    · obtain ⟨d1, d2, -, d4⟩ := import_float g p hp e he
      rcases ha with ha | ha
      · rw [d4] at ha; cases ha
      · rw [d1, d2] at ha; exact Or.inr ha
  · rintro (a | a)
    · exact Or.inl a
    · exact Or.inr (Or.inr ⟨_, hg, Or.inr (by rw [c1, c2]; exact a)⟩)

end import_

/-! ### Examples -/

section examples

local instance ratOpsMat : FloatOps ℚ := ⟨id, fun a b => decide (a < b), fun a b => decide (a ≤ b)⟩

/-- Is an entry named after its source? -/
def ExtField.named : ExtField → Bool
  | .num key p => p = "Extensions." ++ key.capitalize
  | .color key p => p = "Extensions." ++ key.capitalize
  | .tex key m => key.capitalize = m ++ "Texture"

/-- The entries of the extensions are named as in the glTF specification: the parameter `Extensions.XFactor` of
the source is `xFactor`, the texture slot `X` is `xTexture`. -/
theorem extTable_naming :
    (∀ t ∈ extTable, ∀ f ∈ t.2.2, f.named = true) ∧
    (∀ t ∈ extTable, ∃ w ∈ ["Specular", "Clearcoat", "Sheen", "Ior", "Volume", "Transmission"],
      t.2.1 = "KHR_materials_" ++ w.decapitalize ∧
      (t.1 = "Extensions." ++ w ∨ t.1 = "Extensions." ++ w ++ "Ext")) := by decide +kernel

def exOpt : MatOptions ℚ := ⟨false, false, 2 / 5, 99 / 100⟩

def exLoad : Str → Bool := fun n => n = "a.png".toList || n = "b.png".toList

/-- A bright material with a Lambert shader, half transparent. -/
def exPlain : GMaterial ℚ :=
  ⟨"plain".toList, ⟨1, 1, 1, 1 / 2⟩, 4, 1 / 3, "a.png".toList, "gone.png".toList, none, true, 2, none⟩

/-- A material with the glTF shader, two extensions and three textures. -/
def exShader : GMaterial ℚ :=
  ⟨"shader".toList, ⟨1, 0, 0, 1⟩, 0, 0, "a.png".toList, [], some ⟨1 / 2, 2, 1⟩, false, 2,
    some ⟨"glTF".toList,
      [("Metallic".toList, .param (.float (1 / 4))), ("AlphaMode".toList, .param (.int 2)),
       ("AlphaCutOff".toList, .param (.float (1 / 2))),
       ("Extensions.Sheen".toList, .param (.bool true)),
       ("Extensions.SheenColorFactor".toList, .param (.color [1, 2, 3, 4])),
       ("Extensions.Volume".toList, .param (.bool true)),
       ("Extensions.ThicknessFactor".toList, .param (.float 7))],
      [("SheenColor".toList, "b.png".toList), ("Thickness".toList, "b.png".toList)]⟩⟩

/-- The hypothesis of `materials_refs` and `material_fields` holds of two materials with shared textures. -/
example : exportMaterials exOpt exLoad [(exPlain, false), (exShader, false)] [] =
    some ([⟨"plain".toList, ⟨1, 1, 1, 1 / 2⟩, 1 / 3, 2 / 5, true, ⟨1, 1, 1⟩, .blend, none, [], some 0, none⟩,
      ⟨"shader".toList, ⟨1, 0, 0, 1⟩, 1 / 4, 0, false, ⟨1 / 4, 1, 1 / 2⟩, .mask, some (1 / 2),
        [("KHR_materials_sheen", [("sheenColorFactor", .color [1, 2, 3]), ("sheenColorTexture", .tex 1)]),
         ("KHR_materials_volume", [("thicknessFactor", .num 7), ("thicknessTexture", .tex 1)])], some 0, none⟩],
      ["a.png".toList, "b.png".toList]) := by decide +kernel

/-- `emissive_spec` with a source above 1. -/
example : emissiveFactor exShader = ⟨1 / 4, 1, 1 / 2⟩ := by decide +kernel

/-- `alpha_mode_set`, `alpha_mode_only_false` and `mask_cutoff_false`: a material without the glTF shader. -/
example : (exportMaterial exOpt exLoad false (exPlain.setAlphaMode 2) []).map (fun x => (x.1.alphaMode, x.1.alphaCutoff,
    x.1.metallic, x.1.roughness)) = some (.mask, some 0, 0, 0) ∧ (∀ e, ¬ IsGltf exPlain e) :=
  ⟨by decide +kernel, fun _ he => by cases he.1⟩

/-- `alpha_mode_only_partial` and `mask_cutoff_partial`: a material with the glTF shader. -/
example : ∃ e, IsGltf exShader e ∧ e.params.lookup "AlphaCutOff".toList = some (.param (.float (1 / 2))) ∧
    e.intParam "AlphaMode".toList = 2 := ⟨_, ⟨rfl, rfl⟩, by decide +kernel, by decide +kernel⟩

/-- A blended glTF material that is not unlit. -/
def exIn : InMaterial ℚ :=
  ⟨"in".toList, true, ⟨1, 0, 1 / 2⟩, .blend, 1 / 2, some ⟨⟨1, 1, 1, 1 / 2⟩, 0, 1, some "b.png".toList⟩⟩

/-- `gltf_material_partial`, `gltf_alpha_false` and `gltf_unlit_partial`: the blended material comes out opaque and
unlit. -/
example : exportMaterial exOpt exLoad false (importMaterial exIn) [] =
    some (⟨"in".toList, ⟨1, 1, 1, 1 / 2⟩, 0, 1, true, ⟨1, 0, 1 / 2⟩, .opaque, none, [(unlitName, [])], some 0, none⟩,
      ["b.png".toList]) := by decide +kernel

/-- `gltf_default_false`: a material without the block. -/
example : (exportMaterial exOpt exLoad false (importMaterial { exIn with pbr := none }) []).map
    (fun x => (x.1.baseColor, x.1.metallic, x.1.roughness)) = some (⟨0, 0, 0, 0⟩, 0, 0) := by decide +kernel

end examples

end Verif.Gltf
