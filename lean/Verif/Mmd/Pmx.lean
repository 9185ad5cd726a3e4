import Verif.Mmd.Doc

/-! Model of mmd/pmx_parser.go and mmd/pmx_writer.go. -/

namespace Verif.Mmd

open Verif.Geom

/-! ## Parser -/

/-- `p.header.Info[i]`: panics when the header has fewer entries. -/
def attr (info : Bytes) (i : Nat) : StateT Bytes (Except Stop) UInt8 :=
  match info[i]? with
  | some b => pure b
  | none => throw .panic

/-- mmd/pmx_parser.go:25-27. -/
def readIndex (info : Bytes) (i : Nat) : Rd Int := do readVInt (← attr info i)

/-- mmd/pmx_parser.go:29-31. -/
def readUIndex (info : Bytes) (i : Nat) : Rd Int := do readVUInt (← attr info i)

/-- The little-endian 16 bit units of a buffer. -/
def units : Bytes → List Nat
  | a :: b :: rest => (a.toNat + 256 * b.toNat) :: units rest
  | _ => []

/-- Go's `utf16.Decode`: surrogate pairs are combined, lone surrogates become U+FFFD. -/
def utf16Decode : List Nat → List Nat
  | [] => []
  | [a] => if 0xd800 ≤ a ∧ a < 0xe000 then [0xfffd] else [a]
  | a :: b :: rest =>
    if 0xd800 ≤ a ∧ a < 0xdc00 ∧ 0xdc00 ≤ b ∧ b < 0xe000 then
      ((a - 0xd800) * 1024 + (b - 0xdc00) + 0x10000) :: utf16Decode rest
    else if 0xd800 ≤ a ∧ a < 0xe000 then 0xfffd :: utf16Decode (b :: rest)
    else a :: utf16Decode (b :: rest)

/-- Go's conversion of a rune to a string (UTF-8); only values produced by `utf16Decode` occur. -/
def utf8Rune (r : Nat) : Bytes :=
  if r < 0x80 then [UInt8.ofNat r]
  else if r < 0x800 then [UInt8.ofNat (0xc0 + r / 64), UInt8.ofNat (0x80 + r % 64)]
  else if r < 0x10000 then
    [UInt8.ofNat (0xe0 + r / 4096), UInt8.ofNat (0x80 + r / 64 % 64), UInt8.ofNat (0x80 + r % 64)]
  else
    [UInt8.ofNat (0xf0 + r / 262144), UInt8.ofNat (0x80 + r / 4096 % 64),
     UInt8.ofNat (0x80 + r / 64 % 64), UInt8.ofNat (0x80 + r % 64)]

/-- mmd/pmx_parser.go:33-44. Past the end the buffer keeps its zero bytes. -/
def readText (info : Bytes) : Rd Bytes := do
  let len ← readInt
  let enc ← attr info 0
  if enc = 0 then
    let b := (← readBuf (len / 2 * 2)).getD (List.replicate (len / 2 * 2) 0)
    return (utf16Decode (units b)).flatMap utf8Rune
  else
    return (← readBuf len).getD (List.replicate len 0)

/-- mmd/pmx_parser.go:46-61. `fmt` is the format already read by `Parse` (mmd/pmx_parser.go:420),
if any. -/
def readHeader (fmt : Option Bytes) : Rd Header := do
  let format ← (match fmt with
    | some f => pure f
    | none => do return (← readBuf 4).getD (List.replicate 4 0))
  if format ≠ pmxMagic then throw .error
  let version ← readFloat
  let n ← readU8
  let info := (← readBuf n.toNat).getD (List.replicate n.toNat 0)
  return ⟨format, version, info⟩

/-- `if err := p.read(&x); err != nil { log.Fatal(err) }`. -/
def readOrDie (n : Nat) : Rd Bytes := do
  match ← readBuf n with
  | some b => return b
  | none => throw .fatal

/-- Decoding of a slice of `n` 4-vectors. -/
def decV4s : Nat → Bytes → List V4
  | 0, _ => []
  | n + 1, b => decV4 (b.take 16) :: decV4s n (b.drop 16)

/-- The bits of the float32 constant 1. -/
def oneBits : UInt32 := 0x3f800000

/-- The weight part of `readVertex`, mmd/pmx_parser.go:79-108. `sub1 w` is the float32 value
`1 - w`. In the last `p.read` nothing is stored past the end. -/
def readWeights (sub1 : UInt32 → UInt32) (info : Bytes) (t : UInt8) : Rd (List Int × List UInt32) :=
  if t = 0 then do
    let b ← readIndex info attrBone
    return ([b], [oneBits])
  else if t = 1 then do
    let b0 ← readIndex info attrBone
    let b1 ← readIndex info attrBone
    let w ← readFloat
    return ([b0, b1], [w, sub1 w])
  else if t = 2 then do
    let bs ← readN 4 (readIndex info attrBone)
    let ws ← readN 4 readFloat
    return (bs, ws)
  else if t = 3 then do
    let b0 ← readIndex info attrBone
    let b1 ← readIndex info attrBone
    let w ← readFloat
    match ← readBuf 36 with
    | some b => return ([b0, b1], w :: sub1 w :: (List.range 9).map (f32At b))
    | none => return ([b0, b1], w :: sub1 w :: List.replicate 9 0)
  else throw .fatal

/-- mmd/pmx_parser.go:63-111. -/
def readVertex (sub1 : UInt32 → UInt32) (info : Bytes) : Rd Vertex := do
  let pos ← readOrDie 12
  let normal ← readOrDie 12
  let uv ← readOrDie 8
  let n ← attr info attrExtUV
  let ext ← readOrDie (16 * n.toNat)
  let t ← readU8
  let bw ← readWeights sub1 info t
  let edge ← readFloat
  return ⟨decV3 pos, decV3 normal, decV2 uv, decV4s n.toNat ext, edge, bw.1, bw.2⟩

/-- mmd/pmx_parser.go:113-119. -/
def readFace (info : Bytes) : Rd Face := do
  let a ← readUIndex info attrVert
  let b ← readUIndex info attrVert
  let c ← readUIndex info attrVert
  return ⟨a, b, c⟩

/-- mmd/pmx_parser.go:121-144. -/
def readMaterial (info : Bytes) : Rd Material := do
  let name ← readText info
  let nameEn ← readText info
  let color ← readV4
  let specular ← readV3
  let specularity ← readFloat
  let aColor ← readV3
  let flags ← readU8
  let edgeColor ← readV4
  let edgeScale ← readFloat
  let textureID ← readIndex info attrTex
  let envID ← readIndex info attrTex
  let envMode ← readU8
  let toonType ← readU8
  let toon ← (if toonType = 0 then readIndex info attrTex
    else do return ((← readU8).toNat : Int))
  let memo ← readText info
  let count ← readInt
  return ⟨name, nameEn, color, specular, specularity, aColor, flags, edgeColor, edgeScale,
    textureID, envID, envMode, toonType, toon, memo, count⟩

/-- One IK link, mmd/pmx_parser.go:194-201. -/
def readLink (info : Bytes) : Rd Link := do
  let t ← readIndex info attrBone
  let has ← readU8
  if has ≠ 0 then
    let mn ← readV3
    let mx ← readV3
    return ⟨t, true, mx, mn⟩
  else
    return ⟨t, false, V3.zero, V3.zero⟩

/-- The IK part of a bone, mmd/pmx_parser.go:188-203. -/
def readIK (info : Bytes) : Rd IK := do
  let t ← readIndex info attrBone
  let loop ← readInt
  let lim ← readFloat
  let n ← readInt
  let links ← readN n (readLink info)
  return ⟨t, loop, lim, links⟩

/-- The zero value of the `IK` field. -/
def IK.none : IK := ⟨0, 0, 0, []⟩

/-- Test of a flag bit. -/
def hasFlag (flags mask : UInt16) : Bool := flags &&& mask != 0

/-- mmd/pmx_parser.go:146-206. Local axes (2048) and external parent (8192) are read and dropped. -/
def readBone (info : Bytes) : Rd Bone := do
  let name ← readText info
  let nameEn ← readText info
  let pos ← readV3
  let parent ← readIndex info attrBone
  let layer ← readInt
  let flags ← readU16
  let tail ← (if hasFlag flags 1 then (do
      let t ← readIndex info attrBone
      return (t, V3.zero))
    else do
      let p ← readV3
      return (-1, p))
  let inh ← (if hasFlag flags 256 || hasFlag flags 512 then (do
      let t ← readIndex info attrBone
      let f ← readFloat
      return (t, f))
    else pure (0, 0))
  let axis ← (if hasFlag flags 1024 then readV3 else pure V3.zero)
  let _ ← (if hasFlag flags 2048 then (do
      let _ ← readV3
      readV3)
    else pure V3.zero)
  let _ ← (if hasFlag flags 8192 then readIndex info attrBone else pure 0)
  let ik ← (if hasFlag flags 32 then readIK info else pure IK.none)
  return ⟨name, nameEn, pos, parent, layer, flags, tail.1, tail.2, inh.1, inh.2, axis, ik⟩

/-- mmd/pmx_parser.go:219-222. -/
def readMorphGroup (info : Bytes) : Rd MorphGroup := do
  let t ← readIndex info attrMorph
  let w ← readFloat
  return ⟨t, w⟩

/-- mmd/pmx_parser.go:225-228. -/
def readMorphVertex (info : Bytes) : Rd MorphVertex := do
  let t ← readUIndex info attrVert
  let o ← readV3
  return ⟨t, o⟩

/-- mmd/pmx_parser.go:231-233: bone morphs are skipped. -/
def skipMorphBone (info : Bytes) : Rd Unit := do
  let _ ← readIndex info attrBone
  let _ ← readV3
  let _ ← readV4
  return ()

/-- mmd/pmx_parser.go:236-239. -/
def readMorphUV (info : Bytes) : Rd MorphUV := do
  let t ← readUIndex info attrVert
  let v ← readV4
  return ⟨t, v⟩

/-- mmd/pmx_parser.go:242-254. -/
def readMorphMaterial (info : Bytes) : Rd MorphMaterial := do
  let t ← readIndex info attrMat
  let flags ← readU8
  let diffuse ← readV4
  let specular ← readV3
  let specularity ← readFloat
  let ambient ← readV3
  let edgeColor ← readV4
  let edgeSize ← readFloat
  let textureTint ← readV4
  let environmentTint ← readV4
  let toonTint ← readV4
  return ⟨t, flags, diffuse, specular, specularity, ambient, edgeColor, edgeSize, textureTint,
    environmentTint, toonTint⟩

/-- mmd/pmx_parser.go:208-263. The morph type does not change during the loop, so the switch is
moved out of it; an unknown type is fatal only when there is an element. -/
def readMorph (info : Bytes) : Rd Morph := do
  let name ← readText info
  let nameEn ← readText info
  let panel ← readU8
  let ty ← readU8
  let n ← readInt
  if ty = 0 then
    let l ← readN n (readMorphGroup info)
    return ⟨name, nameEn, panel, ty, l, [], [], []⟩
  else if ty = 1 then
    let l ← readN n (readMorphVertex info)
    return ⟨name, nameEn, panel, ty, [], l, [], []⟩
  else if ty = 2 then
    let _ ← readN n (skipMorphBone info)
    return ⟨name, nameEn, panel, ty, [], [], [], []⟩
  else if ty = 3 then
    let l ← readN n (readMorphUV info)
    return ⟨name, nameEn, panel, ty, [], [], l, []⟩
  else if ty = 8 then
    let l ← readN n (readMorphMaterial info)
    return ⟨name, nameEn, panel, ty, [], [], [], l⟩
  else
    if n = 0 then return ⟨name, nameEn, panel, ty, [], [], [], []⟩
    else throw .fatal

/-- mmd/pmx_parser.go:282-288: one display target. -/
def skipTarget (info : Bytes) : Rd Unit := do
  let t ← readU8
  let _ ← (if t = 0 then readIndex info attrBone else readIndex info attrMorph)
  return ()

/-- mmd/pmx_parser.go:265-290: display groups are read and dropped. -/
def skipDisplayGroup (info : Bytes) : Rd Unit := do
  let _ ← readText info
  let _ ← readText info
  let _ ← readU8
  let n ← readInt
  let _ ← readN n (skipTarget info)
  return ()

/-- mmd/pmx_parser.go:292-314. -/
def readRigidBody (info : Bytes) : Rd RigidBody := do
  let name ← readText info
  let nameEn ← readText info
  let bone ← readIndex info attrBone
  let group ← readVInt 1
  let groupTarget ← readVInt 2
  let shape ← readU8
  let size ← readV3
  let position ← readV3
  let rotation ← readV3
  let mass ← readFloat
  let ld ← readFloat
  let ad ← readFloat
  let re ← readFloat
  let fr ← readFloat
  let mode ← readU8
  return ⟨name, nameEn, bone, group, groupTarget, shape, size, position, rotation, mass, ld, ad,
    re, fr, mode⟩

/-- mmd/pmx_parser.go:316-337. -/
def readJoint (info : Bytes) : Rd Joint := do
  let name ← readText info
  let nameEn ← readText info
  let ty ← readU8
  let b1 ← readIndex info attrRB
  let b2 ← readIndex info attrRB
  let position ← readV3
  let rotation ← readV3
  let pmin ← readV3
  let pmax ← readV3
  let rmin ← readV3
  let rmax ← readV3
  let ls ← readV3
  let as ← readV3
  return ⟨name, nameEn, ty, b1, b2, position, rotation, pmin, pmax, rmin, rmax, ls, as⟩

/-- A section of the file: a count and that many elements. -/
def readSection {α : Type} (r : Rd α) : Rd (List α) := do
  let n ← readInt
  readN n r

/-- mmd/pmx_parser.go:346-404, everything after the header. -/
def parseContent (sub1 : UInt32 → UInt32) (header : Header) : Rd Document := do
  let info := header.info
  let name ← readText info
  let nameEn ← readText info
  let comment ← readText info
  let commentEn ← readText info
  let vertexes ← readSection (readVertex sub1 info)
  let fn ← readInt
  let faces ← readN (fn / 3) (readFace info)
  let textures ← readSection (readText info)
  let materials ← readSection (readMaterial info)
  let bones ← readSection (readBone info)
  let morphs ← readSection (readMorph info)
  let _ ← readSection (skipDisplayGroup info)
  let bodies ← readSection (readRigidBody info)
  let joints ← readSection (readJoint info)
  return ⟨header, name, nameEn, comment, commentEn, vertexes, faces, textures, materials, bones,
    morphs, bodies, joints⟩

/-- mmd/pmx_parser.go:339-404 (`PMXParser.Parse`). -/
def parsePMX (sub1 : UInt32 → UInt32) (fmt : Option Bytes) : Rd Document := do
  let header ← readHeader fmt
  parseContent sub1 header

/-! ## Writer -/

/-- mmd/pmx_writer.go:140-143. -/
def writeText (v : Bytes) : Wr Unit := do
  writeInt v.length
  emit v

/-- mmd/pmx_writer.go:145-147. -/
def writeIndex (info : Bytes) (i : Nat) (v : Int) : Wr Unit := do writeVInt (← attr info i) v

/-- mmd/pmx_writer.go:153-164. The header of the document itself is changed: format and text
encoding are overwritten. Returns the header after the change. -/
def writeHeader (h : Header) : Wr Header := do
  match h.info with
  | [] => throw .panic
  | _ :: rest =>
    let h' : Header := ⟨pmxMagic, h.version, 1 :: rest⟩
    emit h'.format
    writeFloat h'.version
    writeU8 (UInt8.ofNat h'.info.length)
    emit h'.info
    return h'

/-- The padding of `writeVertex`, mmd/pmx_writer.go:173-194. -/
def padWeights (bones : List Int) (weights : List UInt32) : List Int × List UInt32 :=
  if weights.length = 0 ∨ weights.length = 3 then (bones ++ [-1], weights ++ [0])
  else (bones, weights)

/-- mmd/pmx_writer.go:172-199: the weight type for a number of weights before padding; 5 to 10 and
12 or more fall through the switch and keep 0. -/
def weightType (n : Nat) : UInt8 :=
  if n = 0 ∨ n = 1 then 0
  else if n = 2 then 1
  else if n = 3 ∨ n = 4 then 2
  else if n = 11 then 3
  else 0

/-- mmd/pmx_writer.go:166-215. -/
def writeVertex (info : Bytes) (v : Vertex) : Wr Unit := do
  writeV3 v.pos
  writeV3 v.normal
  writeV2 v.uv
  emit (v.extUVs.flatMap encV4)
  let t := weightType v.weights.length
  let bw := padWeights v.bones v.weights
  writeU8 t
  writeAll bw.1 (writeIndex info attrBone)
  (if t = 0 then pure ()
   else if t = 1 then writeFloat (bw.2.headD 0)
   else if t = 3 then do
     writeFloat (bw.2.headD 0)
     emit ((bw.2.drop 2).flatMap f32Bytes)
   else emit (bw.2.flatMap f32Bytes))
  writeFloat v.edgeScale

/-- mmd/pmx_writer.go:217-221. -/
def writeFace (info : Bytes) (f : Face) : Wr Unit := do
  writeIndex info attrVert f.a
  writeIndex info attrVert f.b
  writeIndex info attrVert f.c

/-- mmd/pmx_writer.go:223-247. -/
def writeMaterial (info : Bytes) (m : Material) : Wr Unit := do
  writeText m.name
  writeText m.nameEn
  writeV4 m.color
  writeV3 m.specular
  writeFloat m.specularity
  writeV3 m.aColor
  writeU8 m.flags
  writeV4 m.edgeColor
  writeFloat m.edgeScale
  writeIndex info attrTex m.textureID
  writeIndex info attrTex m.envID
  writeU8 m.envMode
  writeU8 m.toonType
  (if m.toonType = 0 then writeIndex info attrTex m.toon
   else writeU8 (UInt8.ofNat (m.toon % 256).toNat))
  writeText m.memo
  writeInt m.count

/-- mmd/pmx_writer.go:295-304. -/
def writeLink (info : Bytes) (l : Link) : Wr Unit := do
  writeIndex info attrBone l.targetID
  if l.hasLimit then do
    writeU8 1
    writeV3 l.limitMin
    writeV3 l.limitMax
  else writeU8 0

/-- mmd/pmx_writer.go:290-305. -/
def writeIK (info : Bytes) (k : IK) : Wr Unit := do
  writeIndex info attrBone k.targetID
  writeInt k.loop
  writeFloat k.limitRad
  writeInt k.links.length
  writeAll k.links (writeLink info)

/-- mmd/pmx_writer.go:249-306. -/
def writeBone (info : Bytes) (b : Bone) : Wr Unit := do
  writeText b.name
  writeText b.nameEn
  writeV3 b.pos
  writeIndex info attrBone b.parentID
  writeInt b.layer
  writeU16 b.flags
  (if hasFlag b.flags 1 then writeIndex info attrBone b.tailID else writeV3 b.tailPos)
  (if hasFlag b.flags 256 || hasFlag b.flags 512 then do
     writeIndex info attrBone b.inheritParentID
     writeFloat b.inheritParentInfluence
   else pure ())
  (if hasFlag b.flags 1024 then writeV3 b.fixedAxis else pure ())
  (if hasFlag b.flags 2048 then do
     writeV3 V3.zero
     writeV3 V3.zero
   else pure ())
  (if hasFlag b.flags 8192 then writeIndex info attrBone (-1) else pure ())
  (if hasFlag b.flags 32 then writeIK info b.ik else pure ())

/-- mmd/pmx_writer.go:317-320. -/
def writeMorphGroup (info : Bytes) (m : MorphGroup) : Wr Unit := do
  writeIndex info attrMorph m.target
  writeFloat m.weight

/-- mmd/pmx_writer.go:321-324. -/
def writeMorphVertex (info : Bytes) (m : MorphVertex) : Wr Unit := do
  writeIndex info attrVert m.target
  writeV3 m.offset

/-- mmd/pmx_writer.go:325-328. -/
def writeMorphUV (info : Bytes) (m : MorphUV) : Wr Unit := do
  writeIndex info attrVert m.target
  writeV4 m.value

/-- mmd/pmx_writer.go:329-341. -/
def writeMorphMaterial (info : Bytes) (m : MorphMaterial) : Wr Unit := do
  writeIndex info attrMat m.target
  writeU8 m.flags
  writeV4 m.diffuse
  writeV3 m.specular
  writeFloat m.specularity
  writeV3 m.ambient
  writeV4 m.edgeColor
  writeFloat m.edgeSize
  writeV4 m.textureTint
  writeV4 m.environmentTint
  writeV4 m.toonTint

/-- mmd/pmx_writer.go:308-342. -/
def writeMorph (info : Bytes) (m : Morph) : Wr Unit := do
  writeText m.name
  writeText m.nameEn
  writeU8 m.panelType
  writeU8 m.morphType
  writeInt (m.group.length + m.vertex.length + m.uv.length + m.material.length)
  writeAll m.group (writeMorphGroup info)
  writeAll m.vertex (writeMorphVertex info)
  writeAll m.uv (writeMorphUV info)
  writeAll m.material (writeMorphMaterial info)

/-- mmd/pmx_writer.go:344-364. -/
def writeBody (info : Bytes) (b : RigidBody) : Wr Unit := do
  writeText b.name
  writeText b.nameEn
  writeIndex info attrBone b.bone
  writeVInt 1 b.group
  writeVInt 2 b.groupTarget
  writeU8 b.shape
  writeV3 b.size
  writeV3 b.position
  writeV3 b.rotation
  writeFloat b.mass
  writeFloat b.linearDamping
  writeFloat b.angularDamping
  writeFloat b.restitution
  writeFloat b.friction
  writeU8 b.mode

/-- mmd/pmx_writer.go:366-386. The body indexes use the size declared for *bones*. -/
def writeJoint (info : Bytes) (j : Joint) : Wr Unit := do
  writeText j.name
  writeText j.nameEn
  writeU8 j.type
  writeIndex info attrBone j.body1
  writeIndex info attrBone j.body2
  writeV3 j.position
  writeV3 j.rotation
  writeV3 j.positionMin
  writeV3 j.positionMax
  writeV3 j.rotationMin
  writeV3 j.rotationMax
  writeV3 j.linerSpring
  writeV3 j.angulerSpring

/-- A section of the file: the count and the elements. -/
def writeSection {α : Type} (l : List α) (w : α → Wr Unit) : Wr Unit := do
  writeInt l.length
  writeAll l w

/-- mmd/pmx_writer.go:81-133, everything after the header up to the joints. -/
def writeContent (d : Document) (info : Bytes) : Wr Unit := do
  writeText d.name
  writeText d.nameEn
  writeText d.comment
  writeText d.commentEn
  writeSection d.vertexes (writeVertex info)
  writeInt (d.faces.length * 3 : Nat)
  writeAll d.faces (writeFace info)
  writeSection d.textures writeText
  writeSection d.materials (writeMaterial info)
  writeSection d.bones (writeBone info)
  writeSection d.morphs (writeMorph info)
  writeInt 0
  writeSection d.bodies (writeBody info)
  writeSection d.joints (writeJoint info)

/-- mmd/pmx_writer.go:78-138. -/
def writePMX (d : Document) : Wr Unit := do
  let h ← writeHeader d.header
  writeContent d h.info
  writeInt 0

/-- The bytes `WritePMX` produces (mmd/pmx_writer.go:388-391). -/
def savePMX (d : Document) : Except Stop Bytes := (fun p => p.2) <$> (writePMX d) []

/-- What the PMX parser makes of the bytes of a file; `none` as format: the parser is used
directly (`NewPMXParser(r).Parse()`). -/
def loadPMX (sub1 : UInt32 → UInt32) (b : Bytes) : Except Stop Document :=
  (fun p => p.1) <$> (parsePMX sub1 none) b

end Verif.Mmd
