import Verif.Mmd.Pmx

/-! Model of mmd/pmd_parser.go and of the format dispatch `Parse` in mmd/pmx_parser.go. -/

namespace Verif.Mmd

open Verif.Geom

/-- What the code takes from libraries and from float32 arithmetic: the Shift_JIS decoder
(golang.org/x/text, result as UTF-8 bytes), `float32(b) / 100`, `1 - w`, `float32(b)` and `c < 1`. -/
structure PmdEnv where
  sjis : Bytes → Bytes
  percent : UInt8 → UInt32
  sub1 : UInt32 → UInt32
  ofU8 : UInt8 → UInt32
  ltOne : UInt32 → Bool

/-- `bytes.SplitN(b, []byte{0}, 2)[0]`: everything before the first zero byte. -/
def cstr (b : Bytes) : Bytes := b.takeWhile (· != 0)

/-- mmd/pmd_parser.go:24-29 (and the same function in mmd/vmd_parser.go:145-150). Past the end the
buffer keeps its zero bytes. -/
def readString (sjis : Bytes → Bytes) (n : Nat) : Rd Bytes := do
  return sjis (cstr ((← readBuf n).getD (List.replicate n 0)))

/-- `"Pmd"`. -/
def pmdMagic : Bytes := [80, 109, 100]

/-- mmd/pmd_parser.go:31-44. `fmt` as in `readHeader`. -/
def readPmdHeader (fmt : Option Bytes) : Rd Header := do
  let format ← (match fmt with
    | some f => pure f
    | none => do return (← readBuf 3).getD (List.replicate 3 0))
  if format ≠ pmdMagic then throw .error
  let version ← readFloat
  return ⟨format, version, []⟩

/-- mmd/pmd_parser.go:46-57. -/
def readPmdVertex (env : PmdEnv) : Rd Vertex := do
  let pos ← readV3
  let normal ← readV3
  let uv ← readV2
  let b0 ← readVInt 2
  let b1 ← readVInt 2
  let w ← readU8
  let edge ← readU8
  return ⟨pos, normal, uv, [], env.ofU8 edge, [b0, b1], [env.percent w, env.sub1 (env.percent w)]⟩

/-- mmd/pmd_parser.go:134-138. -/
def readPmdFace : Rd Face := do
  let a ← readU16
  let b ← readU16
  let c ← readU16
  return ⟨a.toNat, b.toNat, c.toNat⟩

/-- `strings.SplitN(s, "*", 2)`. -/
def splitStar (s : Bytes) : List Bytes :=
  match s.dropWhile (· != 42) with
  | [] => [s]
  | _ :: rest => [s.takeWhile (· != 42), rest]

/-- `fmt.Sprintf("mat%d", i+1)`. -/
def matName (i : Nat) : Bytes :=
  [109, 97, 116] ++ (Nat.toDigits 10 (i + 1)).map fun c => UInt8.ofNat c.toNat

/-- mmd/pmd_parser.go:59-82. Gets the textures so far and returns them extended. -/
def readPmdMaterial (env : PmdEnv) (textures : List Bytes) (i : Nat) : Rd (Material × List Bytes) := do
  let color ← readV4
  let specularity ← readFloat
  let specular ← readV3
  let aColor ← readV3
  let toon ← readU8
  let edge ← readU8
  let count ← readInt
  let s ← readString env.sjis 20
  let tex := splitStar s
  let flags : UInt8 := if env.ltOne color.w then 1 else 0
  return (⟨matName i, [], color, specular, specularity, aColor, flags, V4.zero, env.ofU8 edge,
      if tex.headD [] ≠ [] then textures.length else -1, 0, 0, 0, toon.toNat, [], count⟩,
    if tex.headD [] ≠ [] then textures ++ tex else textures)

/-- mmd/pmd_parser.go:144-146: `n` materials starting with number `i`. -/
def readPmdMaterials (env : PmdEnv) : Nat → Nat → List Bytes → Rd (List Material × List Bytes)
  | 0, _, textures => return ([], textures)
  | n + 1, i, textures => do
    let m ← readPmdMaterial env textures i
    let ms ← readPmdMaterials env n (i + 1) m.2
    return (m.1 :: ms.1, ms.2)

/-- mmd/pmd_parser.go:84-96. -/
def readPmdBone (env : PmdEnv) : Rd Bone := do
  let name ← readString env.sjis 20
  let parent ← readVInt 2
  let tail ← readVInt 2
  let _ ← readU8
  let _ ← readU16
  let pos ← readV3
  return ⟨name, [], pos, parent, 0, 0, if tail = 0 then -1 else tail, V3.zero, 0, 0, V3.zero, IK.none⟩

/-- mmd/pmd_parser.go:164: one link, without limits. -/
def readPmdLink : Rd Link := do
  let t ← readVInt 2
  return ⟨t, false, V3.zero, V3.zero⟩

/-- mmd/pmd_parser.go:159-165 on one bone: target and loop are replaced, links are appended. -/
def setIK (b : Bone) (target : Int) (loop : Nat) (links : List Link) : Bone :=
  { b with ik := ⟨target, loop, b.ik.limitRad, b.ik.links ++ links⟩ }

/-- mmd/pmd_parser.go:158-165: one IK entry; panics when the bone does not exist. -/
def readPmdIK (bones : List Bone) : Rd (List Bone) := do
  let i ← readU16
  match bones[i.toNat]? with
  | none => throw .panic
  | some b =>
    let target ← readVInt 2
    let ln ← readU8
    let loop ← readU16
    let _ ← readFloat
    let links ← readN ln.toNat readPmdLink
    return bones.set i.toNat (setIK b target loop.toNat links)

/-- mmd/pmd_parser.go:157-166. -/
def readPmdIKs : Nat → List Bone → Rd (List Bone)
  | 0, bones => return bones
  | n + 1, bones => do
    let bones' ← readPmdIK bones
    readPmdIKs n bones'

/-- mmd/pmd_parser.go:104-107. -/
def readPmdMorphVertex : Rd MorphVertex := do
  let t ← readVInt 4
  let o ← readV3
  return ⟨t, o⟩

/-- mmd/pmd_parser.go:98-110. -/
def readPmdMorph (env : PmdEnv) : Rd Morph := do
  let name ← readString env.sjis 20
  let n ← readInt
  let panel ← readU8
  let vs ← readN n readPmdMorphVertex
  return ⟨name, [], panel, 0, [], vs, [], []⟩

/-- `base.Vertex[v.Target].Target`, mmd/pmd_parser.go:176. -/
def baseTarget (base : List MorphVertex) (v : MorphVertex) : Except Stop MorphVertex :=
  if v.target < 0 then .error .panic
  else match base[v.target.toNat]? with
    | none => .error .panic
    | some b => .ok { v with target := b.target }

/-- mmd/pmd_parser.go:174-177. -/
def readPmdMorphOn (env : PmdEnv) (base : List MorphVertex) : Rd Morph := do
  let m ← readPmdMorph env
  let vs ← StateT.lift (m.vertex.mapM (baseTarget base))
  return { m with vertex := vs }

/-- mmd/pmd_parser.go:169-179. -/
def readPmdMorphs (env : PmdEnv) : Rd (List Morph) := do
  let n ← readU16
  if n.toNat = 0 then return []
  else
    let base ← readPmdMorph env
    readN (n.toNat - 1) (readPmdMorphOn env base.vertex)

/-- mmd/pmd_parser.go:119-181, after the header. -/
def parsePmdContent (env : PmdEnv) (header : Header) : Rd Document := do
  let name ← readString env.sjis 20
  let comment ← readString env.sjis 256
  let vn ← readInt
  let vertexes ← readN vn (readPmdVertex env)
  let fn ← readInt
  let faces ← readN (fn / 3) readPmdFace
  let mn ← readInt
  let mats ← readPmdMaterials env mn 0 []
  let bn ← readU16
  let bones0 ← readN bn.toNat (readPmdBone env)
  let ikn ← readU16
  let bones ← readPmdIKs ikn.toNat bones0
  let morphs ← readPmdMorphs env
  return ⟨header, name, [], comment, [], vertexes, faces, mats.2, mats.1, bones, morphs, [], []⟩

/-- mmd/pmd_parser.go:113-182 (`PMDParser.Parse`). -/
def parsePMD (env : PmdEnv) (fmt : Option Bytes) : Rd Document := do
  let header ← readPmdHeader fmt
  parsePmdContent env header

/-- The PMD parser used directly on the bytes of a file. -/
def loadPMD (env : PmdEnv) (b : Bytes) : Except Stop Document :=
  (fun p => p.1) <$> (parsePMD env none) b

/-- `n` bytes of a reader that may be shorter than `n`, in a zeroed buffer. -/
def peek (n : Nat) (b : Bytes) : Bytes := b.take n ++ List.replicate (n - b.length) 0

/-- mmd/pmx_parser.go:407-424 (`Parse`) on a reader that delivers all bytes it has (a file): the
first three bytes decide the format. -/
def parseFile (env : PmdEnv) (b : Bytes) : Except Stop Document :=
  if b = [] then .error .error
  else if peek 3 b = pmdMagic then (fun p => p.1) <$> (parsePMD env (some pmdMagic)) (b.drop 3)
  else (fun p => p.1) <$> (parsePMX env.sub1 (some (peek 4 b))) (b.drop 4)

end Verif.Mmd
