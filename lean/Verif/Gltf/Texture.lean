import Verif.Conv.GltfMesh
import Mathlib.Algebra.Order.Floor.Ring
import Mathlib.Algebra.Order.Field.Basic
import Mathlib.Logic.Function.Basic

/-! Model of the texture images of converter/mqo2gltf.go: which part of an image is looked at for transparent
texels, when an image is encoded again and which size it gets.

Numbers are those of an ordered field with `floor`, so the arithmetic is exact (float32 in the code). An image is
given by its size, its color model and the alpha of its texels. -/

namespace Verif.Gltf

open Verif.Geom
open Verif.Conv (GMesh uvCorner lastNear meshFace)
open Verif.Mqo (Str Object Face)

variable {F : Type}

/-! ### The rectangle of the UVs of a material -/

/-- converter/mqo2gltf.go:71-73. -/
structure UvRect (F : Type) where
  top : F
  bottom : F
  left : F
  right : F
deriving DecidableEq

section
variable [Field F] [LinearOrder F] [FloorRing F]

/-- converter/mqo2gltf.go:75-79 (`newUVRectFromPoint`). -/
def UvRect.ofPoint (p : Vec2 F) : UvRect F :=
  let x := p.x - (⌊p.x⌋ : F)
  let y := p.y - (⌊p.y⌋ : F)
  ⟨y, y, x, x⟩

/-- converter/mqo2gltf.go:81-96 (`Add`). -/
def UvRect.add (b : UvRect F) (p : Vec2 F) : UvRect F :=
  let x := p.x - (⌊p.x⌋ : F)
  let y := p.y - (⌊p.y⌋ : F)
  { left := if x < b.left then x else b.left
    right := if b.right < x then x else b.right
    top := if y < b.top then y else b.top
    bottom := if b.bottom < y then y else b.bottom }

/-- converter/mqo2gltf.go:628-638: is there a vertex with nearly this UV, so that the corner is passed over? -/
def reused [FloatOps F] (eps : F) (m : GMesh F) (index : Nat) (uv : Vec2 F) : Bool :=
  match m.assigned.lookup index with
  | some vs =>
    match lastNear eps m.uv uv vs none with
    | some (some _) => true
    | _ => false
  | none => false

/-- converter/mqo2gltf.go:626-653 with the rectangle of line 652: the corners of a face with UVs. `none` is a
panic. -/
def boundsCorners [FloatOps F] (eps : F) (hasJoints : Bool) (f : Face F) :
    Nat → List Nat → GMesh F → UvRect F → Option (UvRect F)
  | _, [], _, b => some b
  | i, index :: rest, m, b =>
    match f.uvs[i]?, f.normals[i]? with
    | some uv, some normal =>
      match uvCorner eps hasJoints m index uv normal with
      | none => none
      | some (m', _) =>
        boundsCorners eps hasJoints f (i + 1) rest m' (if reused eps m index uv then b else b.add uv)
    | _, _ => none

/-- converter/mqo2gltf.go:606-653, the map `uvBounds` of rectangles by material, for one face. The mesh `m` is the
one before the face. -/
def boundsFace [FloatOps F] (eps : F) (hasJoints : Bool) (materials : List (Int × Nat)) (m : GMesh F) (f : Face F)
    (bs : Int → Option (UvRect F)) : Option (Int → Option (UvRect F)) :=
  if f.verts.length < 3 then some bs
  else
    match materials.lookup f.material with
    | none => some bs
    | some _ =>
      match f.uvs with
      | [] => some bs
      | uv :: _ =>
        match boundsCorners eps hasJoints f 0 f.verts { m with useUV := true }
            ((bs f.material).getD (UvRect.ofPoint uv)) with
        | none => none
        | some b => some (Function.update bs f.material (some b))

/-- converter/mqo2gltf.go:606-663: the rectangles after the faces of an object. -/
def boundsFaces [FloatOps F] (eps : F) (hasJoints : Bool) (materials : List (Int × Nat)) :
    List (Face F) → GMesh F → (Int → Option (UvRect F)) → Option (Int → Option (UvRect F))
  | [], _, bs => some bs
  | f :: fs, m, bs =>
    match boundsFace eps hasJoints materials m f bs, meshFace eps hasJoints materials m f with
    | some bs, some m => boundsFaces eps hasJoints materials fs m bs
    | _, _ => none

end

/-! ### Looking for transparent texels -/

/-- What `ColorModel` of an image tells (converter/mqo2gltf.go:318-328). `other` are e.g. images with a palette, with
16 bits per channel, or gray ones. -/
inductive ColorKind where
  | rgba
  | nrgba
  | ycbcr
  | cmyk
  | other
deriving DecidableEq

/-- An image whose bounds begin at the origin. All images of the standard library have `SubImage`. -/
structure Image where
  width : Nat
  height : Nat
  kind : ColorKind
  alpha : Nat → Nat → Nat

/-- `Opaque` of `SubImage(r)`, for the rectangle from (x0, y0) to (x1, y1), exclusive. -/
def Image.opaqueIn (img : Image) (x0 y0 x1 y1 : Nat) : Bool :=
  (List.range img.width).all fun x => (List.range img.height).all fun y =>
    !(decide (x0 ≤ x ∧ x < x1 ∧ y0 ≤ y ∧ y < y1)) || img.alpha x y == 255

/-- `strings.HasSuffix`. -/
def hasSuffix (s suffix : Str) : Bool := suffix.reverse.isPrefixOf s.reverse

/-- converter/mqo2gltf.go:308-317, 323, 325: is the part of the image in the rectangle opaque? The factors of a
rectangle are not negative, so `int` is the floor. -/
def Image.opaqueRect [Field F] [LinearOrder F] [FloorRing F] (img : Image) : Option (UvRect F) → Bool
  | none => img.opaqueIn 0 0 img.width img.height
  | some r => img.opaqueIn ⌊(img.width : F) * r.left⌋.toNat ⌊(img.height : F) * r.top⌋.toNat
      ⌊(img.width : F) * r.right⌋.toNat ⌊(img.height : F) * r.bottom⌋.toNat

/-- converter/mqo2gltf.go:300-329 (`hasAlpha`). `img` is the decoded image, `none` if there is none. `rect` is `none`
for nil. -/
def hasAlpha [Field F] [LinearOrder F] [FloorRing F] (texture : Str) (img : Option Image) (rect : Option (UvRect F)) :
    Bool :=
  if texture = [] ∨ hasSuffix texture ".jpg".toList = true ∨ hasSuffix texture ".bmp".toList = true then false
  else
    match img with
    | none => false
    | some img =>
      match img.kind with
      | .rgba => !img.opaqueRect rect
      | .nrgba => !img.opaqueRect rect
      | _ => false

/-! ### Sizes and encodings -/

/-- The options of converter/mqo2gltf.go:38-41. -/
structure TexOptions (F : Type) where
  reCompress : Bool
  bytesThreshold : Int
  limit : Int
  scale : F

/-- converter/mqo2gltf.go:336-343: the scale, at most so that the width keeps the limit. The scale given is not
negative. -/
def finalScale [Field F] [LinearOrder F] [FloorRing F] (w : Nat) (scale : F) (limit : Int) : F :=
  if 0 < limit then
    let sz := ⌊(w : F) * scale⌋
    if limit < sz then scale * ((limit : F) / (sz : F)) else scale
  else scale

/-- converter/mqo2gltf.go:336-349: the size of the encoded image. -/
def scaledSize [Field F] [LinearOrder F] [FloorRing F] (w h : Nat) (scale : F) (limit : Int) : Nat × Nat :=
  let s := finalScale w scale limit
  if s ≠ 1 then (⌊(w : F) * s⌋.toNat, ⌊(h : F) * s⌋.toNat) else (w, h)

/-- The types of images written to a glTF document. -/
inductive Mime where
  | png
  | jpeg
deriving DecidableEq

/-- Whether the encoders of the standard library take an image of this size: `png.Encode` refuses an empty image and
sizes from 2^32 on, `jpeg.Encode` sizes from 2^16 on. -/
def encodes : Mime → Nat × Nat → Bool
  | .png, (w, h) => decide (0 < w ∧ 0 < h ∧ w < 2 ^ 32 ∧ h < 2 ^ 32)
  | .jpeg, (w, h) => decide (w < 2 ^ 16 ∧ h < 2 ^ 16)

/-- A file: its size in bytes and, if it can be decoded, the image. -/
structure TexFile where
  size : Int
  image : Option Image

/-- What is written as the data of an image: the bytes of the file, or an encoded image of some size. -/
inductive TexData where
  | file (path : Str)
  | encoded (path : Str) (size : Nat × Nat)
deriving DecidableEq

/-- `filepath.Join(dir, name)` without the cleaning. -/
def joinPath (dir name : Str) : Str := if dir = [] then name else dir ++ '/' :: name

/-- converter/mqo2gltf.go:370-373: names that are absolute are not joined. -/
def texturePath (dir name : Str) : Str := if name.head? = some '/' then name else joinPath dir name

/-- converter/mqo2gltf.go:386-394: the type of the image, by the extension of the file. -/
def mimeOf (ext : Str) : Mime := if ext = ".jpg".toList ∨ ext = ".jpeg".toList then .jpeg else .png

/-- converter/mqo2gltf.go:363-413 (`addTexture` up to the writing) with 331-361 (`scaleTexture`) and 117-136
(`getImage`, which joins also absolute names). `ext` is the extension in lower case, `fs` the files by path. `none`
is an error. -/
def textureData [Field F] [LinearOrder F] [FloorRing F] (opt : TexOptions F) (fs : Str → Option TexFile) (dir : Str)
    (ext : Str) (name : Str) : Option (Mime × TexData) :=
  let path := texturePath dir name
  let big : Option Bool :=
    if 0 < opt.bytesThreshold then (fs path).map fun f => decide (opt.bytesThreshold < f.size) else some false
  match big with
  | none => none
  | some big =>
    let known := ext = ".jpg".toList ∨ ext = ".jpeg".toList ∨ ext = ".png".toList
    let mime := mimeOf ext
    if opt.reCompress = true ∨ big = true ∨ ¬known then
      match (fs (joinPath dir name)).bind (·.image) with
      | none => none
      | some img =>
        let size := scaledSize img.width img.height opt.scale opt.limit
        if encodes mime size then some (mime, .encoded (joinPath dir name) size) else none
    else (fs path).map fun _ => (mime, .file path)

end Verif.Gltf
