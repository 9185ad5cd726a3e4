import Verif.Gltf.TextureLemmas
import Verif.Conv.GltfMeshProps
import Verif.Mqo.Parser
import Mathlib.Data.Rat.Floor
import Mathlib.Tactic.NormNum
import Mathlib.Tactic.Positivity

/-! Theorems about the textures of exported glTF files (C158, C159, C160). -/

namespace Verif.Gltf

open Verif.Geom
open Verif.Conv
open Verif.Mqo (Str Object Face)

variable {F : Type}

/-! ### C158: transparent textures are found -/

section
variable [Field F] [LinearOrder F] [FloorRing F]

theorem opaqueIn_eq_false (img : Image) (x0 y0 x1 y1 : Nat) : img.opaqueIn x0 y0 x1 y1 = false ↔
    ∃ x y, x < img.width ∧ y < img.height ∧ x0 ≤ x ∧ x < x1 ∧ y0 ≤ y ∧ y < y1 ∧ img.alpha x y ≠ 255 := by
  rw [← Bool.not_eq_true, Image.opaqueIn, List.all_eq_true]
  simp only [List.all_eq_true, List.mem_range, Bool.or_eq_true, Bool.not_eq_true', decide_eq_false_iff_not,
    beq_iff_eq, not_forall, not_or, not_not]
  constructor
  · rintro ⟨x, hx, y, hy, ⟨h1, h2, h3, h4⟩, h5⟩
    exact ⟨x, y, hx, hy, h1, h2, h3, h4, h5⟩
  · rintro ⟨x, y, hx, hy, h1, h2, h3, h4, h5⟩
    exact ⟨x, hx, y, hy, ⟨h1, h2, h3, h4⟩, h5⟩

/-- C158: a texture that is said to be transparent has a transparent texel; with a rectangle, one that the
rectangle meets. -/
theorem alpha_sound [IsStrictOrderedRing F] (texture : Str) (img : Image) (rect : Option (UvRect F))
    (h : hasAlpha texture (some img) rect = true) :
    ∃ x y, x < img.width ∧ y < img.height ∧ img.alpha x y ≠ 255 ∧
      ∀ r, rect = some r → (img.width : F) * r.left < x + 1 ∧ (x : F) < img.width * r.right ∧
        (img.height : F) * r.top < y + 1 ∧ (y : F) < img.height * r.bottom := by
  unfold hasAlpha at h
  split at h
  · exact absurd h (by simp)
  · simp only at h
    have ho : img.opaqueRect rect = false := by
      cases hk : img.kind <;> simp only [hk] at h <;> simpa using h
    cases rect with
    | none =>
      obtain ⟨x, y, hx, hy, _, _, _, _, ha⟩ := (opaqueIn_eq_false _ _ _ _ _).mp ho
      exact ⟨x, y, hx, hy, ha, by simp⟩
    | some r =>
      obtain ⟨x, y, hx, hy, h1, h2, h3, h4, ha⟩ := (opaqueIn_eq_false _ _ _ _ _).mp ho
      refine ⟨x, y, hx, hy, ha, ?_⟩
      intro r' e
      cases e
      have lo : ∀ (a : F) (n : Nat), ⌊a⌋.toNat ≤ n → a < n + 1 := by
        intro a n hn
        have h5 : ⌊a⌋ < (n : Int) + 1 := by omega
        have h6 := Int.floor_lt.mp h5
        push_cast at h6
        exact h6
      have hi : ∀ (a : F) (n : Nat), n < ⌊a⌋.toNat → (n : F) < a := by
        intro a n hn
        have h5 : (n : Int) + 1 ≤ ⌊a⌋ := by omega
        have h6 := Int.le_floor.mp h5
        push_cast at h6
        linarith
      exact ⟨lo _ _ h1, hi _ _ h2, lo _ _ h3, hi _ _ h4⟩

/-- The name of a file that is looked into. -/
def Examined (texture : Str) : Prop :=
  texture ≠ [] ∧ hasSuffix texture ".jpg".toList = false ∧ hasSuffix texture ".bmp".toList = false

/-- C158 (partial): an image with 8 bits per channel and without a palette is found transparent if a texel that lies
entirely in the rectangle is. Missing: texels the rectangle meets only in part, see `whole_texture_false`, and other
kinds of images, see `palette_false`. -/
theorem alpha_found_partial [IsStrictOrderedRing F] (texture : Str) (ht : Examined texture) (img : Image)
    (hk : img.kind = .rgba ∨ img.kind = .nrgba) (r : UvRect F) (x y : Nat) (hx : x < img.width) (hy : y < img.height)
    (ha : img.alpha x y ≠ 255) (h1 : (img.width : F) * r.left < x + 1) (h2 : (x : F) + 1 ≤ img.width * r.right)
    (h3 : (img.height : F) * r.top < y + 1) (h4 : (y : F) + 1 ≤ img.height * r.bottom) :
    hasAlpha texture (some img) (some r) = true := by
  have hn : ¬ (texture = [] ∨ hasSuffix texture ".jpg".toList = true ∨ hasSuffix texture ".bmp".toList = true) := by
    rintro (h | h | h)
    · exact ht.1 h
    · rw [ht.2.1] at h; exact absurd h (by simp)
    · rw [ht.2.2] at h; exact absurd h (by simp)
  have lo : ∀ (a : F) (n : Nat), a < n + 1 → ⌊a⌋.toNat ≤ n := by
    intro a n hn
    have : ⌊a⌋ < (n : Int) + 1 := Int.floor_lt.mpr (by push_cast; exact hn)
    omega
  have hi : ∀ (a : F) (n : Nat), (n : F) + 1 ≤ a → n < ⌊a⌋.toNat := by
    intro a n hn
    have : (n : Int) + 1 ≤ ⌊a⌋ := Int.le_floor.mpr (by push_cast; exact hn)
    omega
  have ho := (opaqueIn_eq_false img ⌊(img.width : F) * r.left⌋.toNat ⌊(img.height : F) * r.top⌋.toNat
    ⌊(img.width : F) * r.right⌋.toNat ⌊(img.height : F) * r.bottom⌋.toNat).mpr
    ⟨x, y, hx, hy, lo _ _ h1, hi _ _ h2, lo _ _ h3, hi _ _ h4, ha⟩
  unfold hasAlpha
  rw [if_neg hn]
  simp only
  rw [show img.opaqueRect (some r) = false from ho]
  rcases hk with h | h <;> simp [h]

/-- C158: without UVs the whole image counts. -/
theorem alpha_no_uv (texture : Str) (ht : Examined texture) (img : Image)
    (hk : img.kind = .rgba ∨ img.kind = .nrgba) :
    hasAlpha (F := F) texture (some img) none = true ↔
      ∃ x y, x < img.width ∧ y < img.height ∧ img.alpha x y ≠ 255 := by
  have hn : ¬ (texture = [] ∨ hasSuffix texture ".jpg".toList = true ∨ hasSuffix texture ".bmp".toList = true) := by
    rintro (h | h | h)
    · exact ht.1 h
    · rw [ht.2.1] at h; exact absurd h (by simp)
    · rw [ht.2.2] at h; exact absurd h (by simp)
  unfold hasAlpha
  rw [if_neg hn]
  have key : (!img.opaqueIn 0 0 img.width img.height) = true ↔
      ∃ x y, x < img.width ∧ y < img.height ∧ img.alpha x y ≠ 255 := by
    rw [Bool.not_eq_true', opaqueIn_eq_false]
    constructor
    · rintro ⟨x, y, hx, hy, _, _, _, _, ha⟩; exact ⟨x, y, hx, hy, ha⟩
    · rintro ⟨x, y, hx, hy, ha⟩; exact ⟨x, y, hx, hy, by omega, hx, by omega, hy, ha⟩
  rcases hk with h | h <;> simp only [h] <;> exact key

/-- C158 does not hold for other kinds of images: one with a palette or with 16 bits per channel is never found
transparent. -/
theorem palette_false (texture : Str) (img : Image) (hk : img.kind = .other) (rect : Option (UvRect F)) :
    hasAlpha texture (some img) rect = false := by
  unfold hasAlpha
  split
  · rfl
  · simp [hk]

/-- C158 does not hold for UVs on the border: a face that shows the whole texture (or a number of copies of it) has
an empty rectangle, and no image is found transparent. -/
theorem whole_texture_false [IsStrictOrderedRing F] (texture : Str) (img : Image) (a : Vec2 F) (l : List (Vec2 F))
    (ha : (∃ i : Int, a.x = i) ∨ ∃ i : Int, a.y = i)
    (hl : ((∃ i : Int, a.x = i) → ∀ p ∈ l, ∃ i : Int, p.x = i) ∧
      ((∃ i : Int, a.y = i) → ∀ p ∈ l, ∃ i : Int, p.y = i)) :
    hasAlpha texture (some img) (some (l.foldl UvRect.add (UvRect.ofPoint a))) = false := by
  have key : ∀ (l : List (Vec2 F)) (r : UvRect F),
      ((∀ p ∈ l, ∃ i : Int, p.x = i) → r.right = 0 → (l.foldl UvRect.add r).right = 0) ∧
      ((∀ p ∈ l, ∃ i : Int, p.y = i) → r.bottom = 0 → (l.foldl UvRect.add r).bottom = 0) := by
    intro l
    induction l with
    | nil => exact fun r => ⟨fun _ h => h, fun _ h => h⟩
    | cons p l ih =>
      intro r
      constructor
      · intro h1 h2
        refine (ih _).1 (fun q hq => h1 q (by simp [hq])) ?_
        obtain ⟨i, hi⟩ := h1 p (by simp)
        simp [UvRect.add, hi, h2]
      · intro h1 h2
        refine (ih _).2 (fun q hq => h1 q (by simp [hq])) ?_
        obtain ⟨i, hi⟩ := h1 p (by simp)
        simp [UvRect.add, hi, h2]
  by_contra hc
  have hc' : hasAlpha texture (some img) (some (l.foldl UvRect.add (UvRect.ofPoint a))) = true := by simpa using hc
  obtain ⟨x, y, _, _, _, hr⟩ := alpha_sound texture img _ hc'
  obtain ⟨_, h2, _, h4⟩ := hr _ rfl
  rcases ha with h | h
  · have : (l.foldl UvRect.add (UvRect.ofPoint a)).right = 0 := by
      refine (key l _).1 (hl.1 h) ?_
      obtain ⟨i, hi⟩ := h
      simp [UvRect.ofPoint, hi]
    rw [this, mul_zero] at h2
    exact absurd h2 (not_lt.mpr (Nat.cast_nonneg x))
  · have : (l.foldl UvRect.add (UvRect.ofPoint a)).bottom = 0 := by
      refine (key l _).2 (hl.2 h) ?_
      obtain ⟨i, hi⟩ := h
      simp [UvRect.ofPoint, hi]
    rw [this, mul_zero] at h4
    exact absurd h4 (not_lt.mpr (Nat.cast_nonneg y))

/-- C158 (partial): if no vertex is used by faces of two materials, the rectangle of a material has, for every UV of
its faces, that UV or one that the export treats as equal. Rectangles only grow from object to object. Missing:
vertices that two materials share, see `shared_vertices_false`. -/
theorem bounds_cover_partial [FloatOps F] (scale eps : F) (hasJoints : Bool) (o : Object F) (skin : List (VSkin F))
    (hs : hasJoints = true → skin.length = o.vertexes.length) (hf : ∀ f ∈ o.faces, TriFace o f)
    (own : Nat → Int) (ho : ∀ f ∈ o.faces, f.uvs ≠ [] → ∀ v ∈ f.verts, own v = f.material)
    (materials : List (Int × Nat)) (bs : Int → Option (UvRect F)) :
    ∃ bs', boundsFaces eps hasJoints materials o.faces (startMesh scale o skin) bs = some bs' ∧
      (∀ k r, bs k = some r → ∃ r', bs' k = some r' ∧ r.Sub r') ∧
      ∀ f ∈ o.faces, (materials.lookup f.material).isSome = true → ∀ uv ∈ f.uvs,
        ∃ r t, bs' f.material = some r ∧ r.Has t ∧ (t = uv ∨ lt (uv.sub t).lenSqr eps = true) := by
  obtain ⟨bs', h1, h2, h3⟩ := boundsFaces_spec (eps := eps) own materials o.faces (startMesh scale o skin) [] bs
    (startMesh_inv scale hasJoints o skin hs)
    ⟨by simp [startMesh], fun mat => ⟨[], by simp [facesWith], by simp [startMesh, reversedTris]⟩,
      by simp [startMesh, facesWith]⟩ hf ho (by intro index vs v t h; simp [startMesh] at h)
  exact ⟨bs', h1, h2, h3⟩

end

/-! Examples for C158. -/

/-- The comparison of rationals, for the examples. -/
local instance instFloatOpsTexQ : FloatOps ℚ where
  sqrt := id
  lt a b := decide (a < b)
  le a b := decide (a ≤ b)

/-- Four texels by four, all opaque but the one at (1, 2). -/
def holeImage : Image := ⟨4, 4, .nrgba, fun x y => if x = 1 ∧ y = 2 then 0 else 255⟩

example : Examined "hole.png".toList := by unfold Examined; decide
example : hasAlpha "hole.png".toList (some holeImage) (some (⟨1 / 2, 3 / 4, 1 / 4, 1 / 2⟩ : UvRect ℚ)) = true := by
  decide +kernel
example : hasAlpha "hole.png".toList (some holeImage) (some (⟨0, 1 / 2, 0, 1⟩ : UvRect ℚ)) = false := by
  decide +kernel
example : (∃ i : Int, (⟨0, 0⟩ : Vec2 ℚ).x = i) ∧ ∀ p ∈ [(⟨1, 0⟩ : Vec2 ℚ), ⟨1, 1⟩, ⟨0, 1⟩], ∃ i : Int, p.x = i :=
  ⟨⟨0, by norm_num⟩, by
    intro p hp
    simp only [List.mem_cons, List.not_mem_nil, or_false] at hp
    rcases hp with rfl | rfl | rfl
    · exact ⟨1, by norm_num⟩
    · exact ⟨1, by norm_num⟩
    · exact ⟨0, by norm_num⟩⟩

/-- A face of the sample below. -/
def uvFace (material : Int) (verts : List Nat) (uvs : List (Vec2 ℚ)) : Face ℚ :=
  ⟨0, verts, material, uvs, [some ⟨0, 0, 1⟩, some ⟨0, 0, 1⟩, some ⟨0, 0, 1⟩]⟩

/-- Two triangles of one texture, the second of another material. -/
def twoMaterials (material : Int) (verts : List Nat) : Object ℚ :=
  { Mqo.newObject (0 : ℚ) [] with
    vertexes := [⟨0, 0, 0⟩, ⟨1, 0, 0⟩, ⟨1, 1, 0⟩, ⟨0, 0, 0⟩, ⟨1, 0, 0⟩, ⟨1, 1, 0⟩]
    faces := [uvFace 0 [0, 1, 2] [⟨1 / 4, 1 / 4⟩, ⟨3 / 4, 1 / 4⟩, ⟨3 / 4, 3 / 4⟩],
      uvFace material verts [⟨1 / 4, 1 / 4⟩, ⟨3 / 4, 1 / 4⟩, ⟨3 / 4, 3 / 4⟩]] }

/-- With vertices of its own the second material has the rectangle of its face. -/
example : (boundsFaces (F := ℚ) (1 / 10000) false [(0, 0), (1, 1)] (twoMaterials 1 [3, 4, 5]).faces
    (startMesh 1 (twoMaterials 1 [3, 4, 5]) []) (fun _ => none)).map (fun bs => bs 1) =
    some (some ⟨1 / 4, 3 / 4, 1 / 4, 3 / 4⟩) := by decide +kernel

example : ∀ f ∈ (twoMaterials 1 [3, 4, 5]).faces, ∀ v ∈ f.verts, (if v < 3 then 0 else 1 : Int) = f.material := by
  decide +kernel

/-- C158 does not hold for materials that share vertices: the rectangle of the second material is a point, although
its face shows a quarter of the texture, and the hole in this part is not found. -/
theorem shared_vertices_false :
    ((boundsFaces (F := ℚ) (1 / 10000) false [(0, 0), (1, 1)] (twoMaterials 1 [0, 1, 2]).faces
      (startMesh 1 (twoMaterials 1 [0, 1, 2]) []) (fun _ => none)).map (fun bs => bs 1) =
      some (some ⟨1 / 4, 1 / 4, 1 / 4, 1 / 4⟩)) ∧
    hasAlpha "hole.png".toList (some holeImage) (some (⟨1 / 4, 1 / 4, 1 / 4, 1 / 4⟩ : UvRect ℚ)) = false ∧
    hasAlpha "hole.png".toList (some holeImage) (some (⟨1 / 4, 3 / 4, 1 / 4, 3 / 4⟩ : UvRect ℚ)) = true := by
  refine ⟨by decide +kernel, by decide +kernel, by decide +kernel⟩

/-- C158 does not hold across the border of the texture: a triangle from u = 3/4 to u = 5/4 shows the column at
u = 7/8 only outside of its rectangle, from 1/4 to 3/4. -/
theorem seam_false :
    (([⟨5 / 4, 0⟩, ⟨5 / 4, 3 / 4⟩].foldl UvRect.add (UvRect.ofPoint ⟨3 / 4, 0⟩) : UvRect ℚ)) =
      ⟨0, 3 / 4, 1 / 4, 3 / 4⟩ := by decide +kernel

/-! ### C159: the limit of the resolution -/

section
variable [Field F] [LinearOrder F] [FloorRing F] [IsStrictOrderedRing F]

theorem finalScale_pos (w : Nat) (scale : F) (hs : 0 < scale) (limit : Int) : 0 < finalScale w scale limit := by
  unfold finalScale
  split
  · rename_i h
    simp only
    split
    · rename_i h2
      have h3 : (0 : F) < limit := by exact_mod_cast h
      have h4 : (0 : F) < (⌊(w : F) * scale⌋ : F) := by exact_mod_cast h.trans h2
      positivity
    · exact hs
  · exact hs

theorem finalScale_le (w : Nat) (scale : F) (hs : 0 < scale) (limit : Int) : finalScale w scale limit ≤ scale := by
  unfold finalScale
  split
  · rename_i h
    simp only
    split
    · rename_i h2
      have h4 : (0 : F) < (⌊(w : F) * scale⌋ : F) := by exact_mod_cast h.trans h2
      have h5 : (limit : F) / (⌊(w : F) * scale⌋ : F) ≤ 1 := by
        rw [div_le_one h4]
        exact_mod_cast h2.le
      calc scale * ((limit : F) / (⌊(w : F) * scale⌋ : F)) ≤ scale * 1 := mul_le_mul_of_nonneg_left h5 hs.le
        _ = scale := mul_one _
    · exact le_refl _
  · exact le_refl _

/-- The width is the floor of the source width times the final scale, also where nothing is drawn anew. -/
theorem scaledSize_eq (w h : Nat) (scale : F) (limit : Int) :
    scaledSize w h scale limit = (⌊(w : F) * finalScale w scale limit⌋.toNat,
      ⌊(h : F) * finalScale w scale limit⌋.toNat) := by
  unfold scaledSize
  simp only
  split
  · rfl
  · rename_i h1
    rw [not_not.mp h1]
    simp

/-- C159: with a limit, an image that is encoded again has at most that width, and exactly that width if the scaled
image would be wider. -/
theorem width_limited (w h : Nat) (scale : F) (hs : 0 < scale) (limit : Int) (hl : 0 < limit) :
    ((scaledSize w h scale limit).1 : Int) ≤ limit ∧
      ((limit : F) + 1 ≤ w * scale → ((scaledSize w h scale limit).1 : Int) = limit) := by
  rw [scaledSize_eq]
  simp only
  unfold finalScale
  rw [if_pos hl]
  simp only
  split
  · rename_i h2
    have hl' : (0 : F) < limit := by exact_mod_cast hl
    have h4 : (0 : F) < (⌊(w : F) * scale⌋ : F) := by exact_mod_cast hl.trans h2
    have h5 : (⌊(w : F) * scale⌋ : F) ≤ w * scale := Int.floor_le _
    have h6 : (w : F) * scale < ⌊(w : F) * scale⌋ + 1 := Int.lt_floor_add_one _
    have h7 : (limit : F) + 1 ≤ ⌊(w : F) * scale⌋ := by exact_mod_cast h2
    have e : ⌊(w : F) * (scale * ((limit : F) / (⌊(w : F) * scale⌋ : F)))⌋ = limit := by
      generalize (⌊(w : F) * scale⌋ : F) = z at *
      rw [Int.floor_eq_iff]
      have e1 : (w : F) * (scale * ((limit : F) / z)) = (w * scale) * limit / z := by
        field_simp
      rw [e1]
      constructor
      · rw [le_div_iff₀ h4]
        nlinarith
      · rw [div_lt_iff₀ h4]
        nlinarith
    rw [e]
    exact ⟨by omega, fun _ => by omega⟩
  · rename_i h2
    refine ⟨by omega, ?_⟩
    intro h3
    have : limit + 1 ≤ ⌊(w : F) * scale⌋ := Int.le_floor.mpr (by push_cast; exact h3)
    omega

/-- C159: both sides are scaled by the same factor (up to cutting to whole texels), which is at most the one asked
for, and is that one if the width keeps the limit or there is none. -/
theorem same_factor (w h : Nat) (scale : F) (hs : 0 < scale) (limit : Int) :
    ∃ s, 0 < s ∧ s ≤ scale ∧ (limit ≤ 0 ∨ (w : F) * scale ≤ limit → s = scale) ∧
      (((scaledSize w h scale limit).1 : F) ≤ w * s ∧ (w : F) * s < (scaledSize w h scale limit).1 + 1) ∧
      ((scaledSize w h scale limit).2 : F) ≤ h * s ∧ (h : F) * s < (scaledSize w h scale limit).2 + 1 := by
  have hp := finalScale_pos w scale hs limit
  have cut : ∀ n : Nat, ((⌊(n : F) * finalScale w scale limit⌋.toNat : Nat) : F) ≤ n * finalScale w scale limit ∧
      (n : F) * finalScale w scale limit < (⌊(n : F) * finalScale w scale limit⌋.toNat : Nat) + 1 := by
    intro n
    have h0 : 0 ≤ ⌊(n : F) * finalScale w scale limit⌋ := Int.floor_nonneg.mpr (by positivity)
    have e : ((⌊(n : F) * finalScale w scale limit⌋.toNat : Nat) : F) = (⌊(n : F) * finalScale w scale limit⌋ : F) := by
      have : ((⌊(n : F) * finalScale w scale limit⌋.toNat : Nat) : Int) = ⌊(n : F) * finalScale w scale limit⌋ :=
        Int.toNat_of_nonneg h0
      exact_mod_cast congrArg (Int.cast (R := F)) this
    rw [e]
    exact ⟨Int.floor_le _, Int.lt_floor_add_one _⟩
  refine ⟨finalScale w scale limit, hp, finalScale_le w scale hs limit, ?_, ?_, ?_⟩
  · rintro (h1 | h1)
    · unfold finalScale
      rw [if_neg (by omega)]
    · unfold finalScale
      split
      · simp only
        rw [if_neg]
        intro h2
        have h3 : (limit : F) + 1 ≤ w * scale :=
          le_trans (by exact_mod_cast h2) (Int.floor_le _)
        linarith
      · rfl
  · rw [scaledSize_eq]
    exact cut w
  · rw [scaledSize_eq]
    exact cut h

/-- C159 does not hold for the height: an image that is narrow enough keeps its height, however large. -/
theorem height_false (w h : Nat) (limit : Int) (hw : (w : Int) ≤ limit) :
    scaledSize (F := F) w h 1 limit = (w, h) := by
  unfold scaledSize finalScale
  by_cases hl : 0 < limit
  · simp [hl, hw]
  · simp [hl]

end

/-- An image 6000 wide and 3000 high is made to fit 4096. -/
example : scaledSize (F := ℚ) 6000 3000 1 4096 = (4096, 2048) := by decide +kernel
example : scaledSize (F := ℚ) 6000 3000 (1 / 3) 4096 = (2000, 1000) := by decide +kernel

/-! ### C160: the data of an exported image -/

section
variable [Field F] [LinearOrder F] [FloorRing F]

/-- C160: an image is written with the type that its data have. A file copied as it is has the extension of the
type; any other format is encoded, as PNG. -/
theorem data_type (opt : TexOptions F) (fs : Str → Option TexFile) (dir ext name : Str) (mime : Mime) (d : TexData)
    (h : textureData opt fs dir ext name = some (mime, d)) :
    (∀ path, d = .file path → path = texturePath dir name ∧ (fs path).isSome = true ∧
      (mime = .jpeg ∧ (ext = ".jpg".toList ∨ ext = ".jpeg".toList) ∨ mime = .png ∧ ext = ".png".toList)) ∧
    ∀ path size, d = .encoded path size → path = joinPath dir name ∧
      (mime = .jpeg ↔ ext = ".jpg".toList ∨ ext = ".jpeg".toList) ∧
      ∃ f img, fs path = some f ∧ f.image = some img ∧
        size = scaledSize img.width img.height opt.scale opt.limit ∧ (mime = .png → 0 < size.1 ∧ 0 < size.2) := by
  have hmime : mimeOf ext = .jpeg ↔ ext = ".jpg".toList ∨ ext = ".jpeg".toList := by
    unfold mimeOf
    split <;> simp_all
  unfold textureData at h
  simp only at h
  generalize (".jpg".toList : Str) = j1 at *
  generalize (".jpeg".toList : Str) = j2 at *
  generalize (".png".toList : Str) = pg at *
  split at h
  · exact absurd h (by simp)
  · rename_i big hbig
    split at h
    · rename_i henc
      split at h
      · exact absurd h (by simp)
      · rename_i img himg
        split at h
        · rename_i he
          simp only [Option.some.injEq, Prod.mk.injEq] at h
          obtain ⟨rfl, rfl⟩ := h
          refine ⟨by simp, ?_⟩
          intro path size e
          simp only [TexData.encoded.injEq] at e
          obtain ⟨rfl, rfl⟩ := e
          refine ⟨rfl, hmime, ?_⟩
          cases hf : fs (joinPath dir name) with
          | none => simp [hf] at himg
          | some f =>
            refine ⟨f, img, rfl, by simpa [hf] using himg, rfl, ?_⟩
            intro hm
            rw [hm] at he
            generalize scaledSize img.width img.height opt.scale opt.limit = sz at he ⊢
            obtain ⟨a, b⟩ := sz
            simp only [encodes, decide_eq_true_eq] at he
            exact ⟨he.1, he.2.1⟩
        · exact absurd h (by simp)
    · rename_i henc
      cases hf : fs (texturePath dir name) with
      | none => simp [hf] at h
      | some f =>
        simp only [hf, Option.map_some, Option.some.injEq, Prod.mk.injEq] at h
        obtain ⟨rfl, rfl⟩ := h
        refine ⟨?_, by simp⟩
        intro path e
        simp only [TexData.file.injEq] at e
        subst e
        refine ⟨rfl, by simp [hf], ?_⟩
        have hk : ext = j1 ∨ ext = j2 ∨ ext = pg := by
          by_contra hc
          exact henc (.inr (.inr hc))
        by_cases h1 : ext = j1 ∨ ext = j2
        · exact .inl ⟨hmime.mpr h1, h1⟩
        · refine .inr ⟨?_, ?_⟩
          · cases hx : mimeOf ext with
            | png => rfl
            | jpeg => exact absurd (hmime.mp hx) h1
          rcases hk with h2 | h2 | h2
          · exact absurd (.inl h2) h1
          · exact absurd (.inr h2) h1
          · exact h2

/-- C160: when a file is encoded again: on request, above the size in bytes, or if it is neither PNG nor JPEG. -/
theorem encoded_iff (opt : TexOptions F) (fs : Str → Option TexFile) (dir ext name : Str) (mime : Mime) (d : TexData)
    (f : TexFile) (hf : fs (texturePath dir name) = some f)
    (h : textureData opt fs dir ext name = some (mime, d)) :
    (∃ path size, d = .encoded path size) ↔
      opt.reCompress = true ∨ (0 < opt.bytesThreshold ∧ opt.bytesThreshold < f.size) ∨
        (ext ≠ ".jpg".toList ∧ ext ≠ ".jpeg".toList ∧ ext ≠ ".png".toList) := by
  unfold textureData at h
  simp only at h
  generalize (".jpg".toList : Str) = j1 at *
  generalize (".jpeg".toList : Str) = j2 at *
  generalize (".png".toList : Str) = pg at *
  split at h
  · exact absurd h (by simp)
  · rename_i big hbig
    have hb : big = true ↔ 0 < opt.bytesThreshold ∧ opt.bytesThreshold < f.size := by
      split at hbig
      · rename_i h0
        rw [hf] at hbig
        simp only [Option.map_some, Option.some.injEq] at hbig
        subst hbig
        simp [h0]
      · rename_i h0
        simp only [Option.some.injEq] at hbig
        subst hbig
        simp [h0]
    split at h
    · rename_i henc
      constructor
      · intro _
        rcases henc with h1 | h1 | h1
        · exact .inl h1
        · exact .inr (.inl (hb.mp h1))
        · exact .inr (.inr (by simpa [not_or] using h1))
      · intro _
        split at h
        · exact absurd h (by simp)
        · split at h
          · simp only [Option.some.injEq, Prod.mk.injEq] at h
            exact ⟨_, _, h.2.symm⟩
          · exact absurd h (by simp)
    · rename_i henc
      constructor
      · rintro ⟨path, size, rfl⟩
        rw [hf] at h
        simp at h
      · intro hc
        refine absurd ?_ henc
        rcases hc with h1 | h1 | ⟨h1, h2, h3⟩
        · exact .inl h1
        · exact .inr (.inl (hb.mpr h1))
        · exact .inr (.inr (by simp [h1, h2, h3]))

/-- C160: every decodable file of a relative name is exported, whatever the options, if its scaled size is one that
the encoders take. -/
theorem exported_partial (opt : TexOptions F) (fs : Str → Option TexFile) (dir ext name : Str)
    (hn : name.head? ≠ some '/') (f : TexFile) (hf : fs (joinPath dir name) = some f) (img : Image)
    (hi : f.image = some img)
    (he : ∀ m, encodes m (scaledSize img.width img.height opt.scale opt.limit) = true) :
    (textureData opt fs dir ext name).isSome = true := by
  have hp : texturePath dir name = joinPath dir name := by simp [texturePath, hn]
  unfold textureData
  simp only
  rw [hp, hf]
  simp only [Option.map_some, Option.bind_some, hi]
  split
  · rename_i hbig
    split at hbig <;> simp at hbig
  · split
    · rw [if_pos (he _)]
      rfl
    · rfl

/-- C160 does not hold for absolute names: with the directory of the source put before them, the file is not found if
it has to be encoded (no file lies below the joined path), although it is found if it is copied. -/
theorem absolute_false (opt : TexOptions F) (fs : Str → Option TexFile) (dir ext name : Str)
    (hc : opt.reCompress = true) (hm : fs (joinPath dir name) = none) : textureData opt fs dir ext name = none := by
  unfold textureData
  simp only [hm, Option.bind_none, hc, true_or, if_true]
  split <;> rfl

/-- C159, C160: the limit has no effect on a PNG file that is copied: by default the file is written as it is. -/
theorem copied_false (scale : F) (limit : Int) (fs : Str → Option TexFile) (dir name : Str) (f : TexFile)
    (hf : fs (texturePath dir name) = some f) :
    textureData ⟨false, 0, limit, scale⟩ fs dir ".png".toList name = some (.png, .file (texturePath dir name)) := by
  have h1 : (".png".toList : Str) ≠ ".jpg".toList := by decide
  have h2 : (".png".toList : Str) ≠ ".jpeg".toList := by decide
  have h3 : mimeOf ".png".toList = .png := by unfold mimeOf; rw [if_neg (by rintro (h | h); exacts [h1 h, h2 h])]
  unfold textureData
  simp only [lt_self_iff_false, if_false, h3, h1, h2, hf, Option.map_some, false_or, not_true_eq_false,
    Bool.false_eq_true]

/-- C160: a PNG file that need not be encoded is copied from the name itself if this is absolute, and from the directory
of the source if it is relative. -/
theorem copied_path (scale : F) (limit : Int) (fs : Str → Option TexFile) (dir rest : Str) (hd : dir ≠ []) (c : Char)
    (hc : c ≠ '/') (f g : TexFile) (hf : fs ('/' :: rest) = some f) (hg : fs (dir ++ '/' :: c :: rest) = some g) :
    textureData ⟨false, 0, limit, scale⟩ fs dir ".png".toList ('/' :: rest) = some (.png, .file ('/' :: rest)) ∧
    textureData ⟨false, 0, limit, scale⟩ fs dir ".png".toList (c :: rest) = some (.png, .file (dir ++ '/' :: c :: rest)) := by
  have h1 : texturePath dir ('/' :: rest) = '/' :: rest := by simp [texturePath]
  have h2 : texturePath dir (c :: rest) = dir ++ '/' :: c :: rest := by simp [texturePath, joinPath, hc, hd]
  constructor
  · rw [copied_false scale limit fs dir _ f (by rw [h1]; exact hf), h1]
  · rw [copied_false scale limit fs dir _ g (by rw [h2]; exact hg), h2]

example : ("tex".toList : Str) ≠ [] ∧ 'a' ≠ '/' := by decide

end

/-- C160 does not hold for very flat images: shrunk to the limit the height is 0, which PNG cannot have, and the
texture is left out. -/
theorem flat_false (name dir : Str) :
    textureData (F := ℚ) ⟨true, 0, 4096, 1⟩ (fun _ => some ⟨1000, some ⟨8192, 1, .nrgba, fun _ _ => 255⟩⟩) dir
      ".png".toList name = none := by
  have h1 : encodes .png (scaledSize (F := ℚ) 8192 1 1 4096) = false := by decide +kernel
  have e1 : (".png".toList : Str) ≠ ".jpg".toList := by decide
  have e2 : (".png".toList : Str) ≠ ".jpeg".toList := by decide
  have e3 : mimeOf ".png".toList = .png := by unfold mimeOf; rw [if_neg (by rintro (h | h); exacts [e1 h, e2 h])]
  unfold textureData
  simp only [Option.bind_some, e3, h1]
  simp

/-- Files for the examples: one image of 6000 by 3000 texels. -/
def oneFile (path : Str) : Option TexFile :=
  if path = "/m/a.png".toList then some ⟨1000, some ⟨6000, 3000, .nrgba, fun _ _ => 255⟩⟩ else none

example : textureData (F := ℚ) ⟨false, 0, 4096, 1⟩ oneFile "/m".toList ".png".toList "a.png".toList =
    some (.png, .file "/m/a.png".toList) := by decide +kernel
example : textureData (F := ℚ) ⟨false, 500, 4096, 1⟩ oneFile "/m".toList ".png".toList "a.png".toList =
    some (.png, .encoded "/m/a.png".toList (4096, 2048)) := by decide +kernel
example : textureData (F := ℚ) ⟨false, 0, 4096, 1⟩ oneFile "/m".toList ".png".toList "/m/a.png".toList =
    some (.png, .file "/m/a.png".toList) := by decide +kernel
example : oneFile (joinPath "/m".toList "/m/a.png".toList) = none := by
  unfold oneFile
  rw [if_neg (by decide)]

end Verif.Gltf
