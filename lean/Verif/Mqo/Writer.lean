import Verif.Mqo.Parser

/-!
Model of `Writer.WriteMQO`, mqo/mqo_writer.go:35-244, for a writer without path or a document without
plugins (no `IncludeXml`, no .mqx file). The text is a list of characters.

Simplification: Go iterates over the maps `ShaderParams` and `VertexByUID` in an arbitrary order, here the
order of the association list is used.
-/

namespace Verif.Mqo

open Verif.Geom Verif.Text

/-- `%d` of a non-negative number. -/
def showNat (n : Nat) : Str := Nat.toDigits 10 n

/-- `%d`, `%v` of an `int`. -/
def showInt (i : Int) : Str := if i < 0 then '-' :: showNat i.natAbs else showNat i.toNat

/-- mqo/mqo_writer.go:28-33. -/
def showBool (b : Bool) : Str := if b then ['1'] else ['0']

/-- Values separated by spaces. -/
def spaced : List Str → Str
  | [] => []
  | [a] => a
  | a :: b :: r => a ++ ' ' :: spaced (b :: r)

section Writing
variable {F : Type} [NumText F]

/-- `%v %v %v`. -/
def showVec3 (v : Vec3 F) : Str :=
  NumText.v v.x ++ ' ' :: (NumText.v v.y ++ ' ' :: NumText.v v.z)

/-- `%.3f %.3f %.3f`. -/
def showVec3f (v : Vec3 F) : Str :=
  NumText.f3 v.x ++ ' ' :: (NumText.f3 v.y ++ ' ' :: NumText.f3 v.z)

/-- A line `\tkey value\n` (with the given indentation). -/
def entry (indent key value : Str) : Str := indent ++ (key ++ ' ' :: (value ++ ['\n']))

/-- A text that is only written if there is a value. -/
def optText {α : Type} (f : α → Str) : Option α → Str
  | some a => f a
  | none => []

def tab1 : Str := ['\t']
def tab2 : Str := ['\t', '\t']
def tab3 : Str := ['\t', '\t', '\t']

/-- mqo/mqo_writer.go:50-67. -/
def sceneText [Zero F] [FloatOps F] (s : Scene F) : Str :=
  entry tab1 "pos".toList (showVec3 s.cameraPos)
  ++ (entry tab1 "lookat".toList (showVec3 s.cameraLookAt)
  ++ (entry tab1 "head".toList (NumText.f4 s.cameraRot.y)
  ++ (entry tab1 "pich".toList (NumText.f4 s.cameraRot.x)
  ++ (entry tab1 "bank".toList (NumText.f4 s.cameraRot.z)
  ++ (entry tab1 "ortho".toList (showBool s.ortho)
  ++ (entry tab1 "zoom2".toList (NumText.f4 s.zoom2)
  ++ (optText (fun a => entry tab1 "amb".toList (showVec3f a)) s.ambientLight
  ++ ((if FloatOps.lt 0 s.frontClip then entry tab1 "frontclip".toList (NumText.v s.frontClip) else [])
  ++ (if FloatOps.lt 0 s.backClip then entry tab1 "backclip".toList (NumText.v s.backClip) else [])))))))))

/-- mqo/mqo_writer.go:49-69. -/
def writeScene [Zero F] [FloatOps F] (s : Scene F) : Str :=
  "Scene {\n".toList ++ (sceneText s ++ "}\n".toList)

/-- ` name(value)`. -/
def attr (name value : Str) : Str := ' ' :: (name ++ '(' :: (value ++ [')']))

/-- `"text"` without any escaping. -/
def quote (t : Str) : Str := '"' :: (t ++ ['"'])

/-- `strings.Replace(t, "\\", "/", -1)`. -/
def slashes (t : Str) : Str := t.map fun c => if c = '\\' then '/' else c

/-- mqo/mqo_writer.go:75-97. -/
def writeMaterial (m : Material F) : Str :=
  tab1 ++ (quote m.name
  ++ ((if m.shader ≠ 0 then attr "shader".toList (showInt m.shader) else [])
  ++ ((if m.doubleSided then attr "dbls".toList (showBool m.doubleSided) else [])
  ++ ((if 0 < m.uid then attr "uid".toList (showInt m.uid) else [])
  ++ (attr "col".toList (spaced [NumText.f3 m.color.x, NumText.f3 m.color.y, NumText.f3 m.color.z,
      NumText.f3 m.color.w])
  ++ (attr "dif".toList (NumText.f3 m.diffuse)
  ++ (attr "amb".toList (NumText.f3 m.ambient)
  ++ (attr "emi".toList (NumText.f3 m.emission)
  ++ (attr "spc".toList (NumText.f3 m.specular)
  ++ (attr "power".toList (NumText.f2 m.power)
  ++ ((if m.texture ≠ [] then attr "tex".toList (quote (slashes m.texture)) else [])
  ++ ((if m.alphaTexture ≠ [] then attr "aplane".toList (quote (slashes m.alphaTexture)) else [])
  ++ ((if m.bumpTexture ≠ [] then attr "bump".toList (quote (slashes m.bumpTexture)) else [])
  ++ ['\n'])))))))))))))

/-- The type word of a shader parameter, mqo/mqo_writer.go:117-125. -/
def paramType : Param F → Str
  | .bool _ => "bool".toList
  | .float _ => "float".toList
  | _ => "int".toList

/-- `%v` of a shader parameter. -/
def showParam : Param F → Str
  | .int n => showInt n
  | .float x => NumText.v x
  | .bool b => showBool b
  | .str t => t
  | .color c => '[' :: (spaced (c.map NumText.v) ++ [']'])

/-- mqo/mqo_writer.go:126. -/
def writeParam (p : Str × Param F) : Str :=
  tab3 ++ (p.1 ++ ' ' :: (paramType p.2 ++ ' ' :: (showParam p.2 ++ ['\n'])))

/-- mqo/mqo_writer.go:113-128. -/
def ex2Text (e : Ex2 F) : Str :=
  entry tab2 "shadertype".toList (quote e.shaderType)
  ++ (entry tab2 "shadername".toList (quote e.shaderName)
  ++ entry tab2 "shaderparam".toList (showNat e.shaderParams.length ++ (" {\n".toList
      ++ (e.shaderParams.flatMap writeParam ++ (tab2 ++ ['}'])))))

/-- mqo/mqo_writer.go:112-129. -/
def writeEx2 (mi : Nat) (e : Ex2 F) : Str :=
  tab1 ++ ("material ".toList ++ (showNat mi ++ (" {\n".toList ++ (ex2Text e ++ (tab1 ++ "}\n".toList)))))

/-- The materials with an `Ex2`, numbered from `mi`. -/
def ex2s : Nat → List (Material F) → List (Nat × Ex2 F)
  | _, [] => []
  | mi, m :: r =>
    match m.ex2 with
    | some e => (mi, e) :: ex2s (mi + 1) r
    | none => ex2s (mi + 1) r

/-- mqo/mqo_writer.go:106-132. -/
def writeEx2s (l : List (Nat × Ex2 F)) : Str :=
  if 0 < l.length then
    "MaterialEx2 ".toList ++ (showNat l.length ++ (" {\n".toList
    ++ (l.flatMap (fun p => writeEx2 p.1 p.2) ++ "}\n".toList)))
  else []

/-- mqo/mqo_writer.go:208-226. -/
def showNormals (l : List (Option (Vec3 F))) : Str :=
  spaced (l.map fun n => if n.isSome then ['2'] else ['0'])
  ++ l.flatMap (optText fun v => ' ' :: showVec3 v)

/-- mqo/mqo_writer.go:194-227. -/
def writeFace (f : Face F) : Str :=
  tab2 ++ (showNat f.verts.length
  ++ (attr "V".toList (spaced (f.verts.map showNat))
  ++ (attr "M".toList (showInt f.material)
  ++ ((if 0 < f.uid then attr "UID".toList (showInt f.uid) else [])
  ++ ((if f.uvs.length = f.verts.length then
        attr "UV".toList (spaced (f.uvs.map fun t => NumText.v t.x ++ ' ' :: NumText.v t.y)) else [])
  ++ ((if f.normals.length = f.verts.length then attr "N".toList (showNormals f.normals) else [])
  ++ ['\n']))))))

/-- mqo/mqo_writer.go:178-181: the last uid of the vertex, or 0. Out of range indexes panic in Go. -/
def uidOf (m : List (Int × Int)) (i : Nat) : Int :=
  m.foldl (fun u p => if p.2 = (i : Int) then p.1 else u) 0

/-- mqo/mqo_writer.go:182-185. -/
def uidLine (m : List (Int × Int)) (i : Nat) : Int :=
  if uidOf m i = 0 then (i : Int) + 1 else uidOf m i

/-- mqo/mqo_writer.go:175-190. -/
def writeUIDs (o : Object F) : Str :=
  if 0 < o.vertexByUID.length then
    tab1 ++ ("vertexattr {\n".toList ++ (tab2 ++ ("uid {\n".toList
    ++ ((List.range o.vertexes.length).flatMap (fun i => tab3 ++ (showInt (uidLine o.vertexByUID i) ++ ['\n']))
    ++ (tab2 ++ ("}\n".toList ++ (tab1 ++ "}\n".toList)))))))
  else []

/-- mqo/mqo_writer.go:136-230. -/
def objectText [Zero F] [DecidableEq F] (o : Object F) : Str :=
  (if 0 < o.uid then entry tab1 "uid".toList (showInt o.uid) else [])
  ++ (entry tab1 "depth".toList (showInt o.depth)
  ++ (entry tab1 "folding".toList (showBool o.folding)
  ++ (optText (fun v => entry tab1 "scale".toList (showVec3 v)) o.scale
  ++ (optText (fun v => entry tab1 "rotation".toList (showVec3 ⟨v.y, v.x, v.z⟩)) o.rotation
  ++ (optText (fun v => entry tab1 "translation".toList (showVec3 v)) o.translation
  ++ ((if o.visible then [] else entry tab1 "visible".toList ['0'])
  ++ (entry tab1 "locking".toList (showBool o.locked)
  ++ (entry tab1 "shading".toList (showInt o.shading)
  ++ (entry tab1 "facet".toList (NumText.v o.facet)
  ++ ((if o.mirror ≠ 0 ∨ o.mirrorDis ≠ 0 then
        entry tab1 "mirror".toList (showInt o.mirror)
        ++ entry tab1 "mirror_dis".toList (NumText.f6 o.mirrorDis) else [])
  ++ ((if 0 < o.patch then
        entry tab1 "patch".toList (showInt o.patch)
        ++ entry tab1 "segment".toList (showInt o.patchSegment) else [])
  ++ (optText (fun v => entry tab1 "color".toList (showVec3f v)) o.color
  ++ (entry tab1 "vertex".toList (showNat o.vertexes.length ++ (" {\n".toList
      ++ (o.vertexes.flatMap (fun v => tab2 ++ (showVec3 v ++ ['\n'])) ++ (tab1 ++ ['}']))))
  ++ (writeUIDs o
  ++ (entry tab1 "face".toList (showNat o.faces.length ++ (" {\n".toList
      ++ (o.faces.flatMap writeFace ++ (tab1 ++ ['}'])))))))))))))))))))

/-- mqo/mqo_writer.go:135-231. -/
def writeObject [Zero F] [DecidableEq F] (o : Object F) : Str :=
  "Object ".toList ++ (quote o.name ++ (" {\n".toList ++ (objectText o ++ "}\n".toList)))

/-- mqo/mqo_writer.go:37-40. -/
def header : Str := "Metasequoia Document\nFormat Text Ver 1.1\nCodePage utf8\n\n".toList

/-- mqo/mqo_writer.go:73-103. -/
def writeMaterials (l : List (Material F)) : Str :=
  "Material ".toList ++ (showNat l.length ++ (" {\n".toList ++ (l.flatMap writeMaterial ++ "}\n".toList)))

/-- mqo/mqo_writer.go:35-244. -/
def write [Zero F] [DecidableEq F] [FloatOps F] (d : Document F) : Str :=
  header
  ++ (optText writeScene d.scene
  ++ (writeMaterials d.materials
  ++ (writeEx2s (ex2s 0 d.materials)
  ++ (d.objects.flatMap writeObject
  ++ "Eof\n".toList))))

end Writing

end Verif.Mqo
