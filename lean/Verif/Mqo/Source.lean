import Verif.Mqo.TextLemmas

/-!
MQO texts as any program may write them: blocks, entries and attributes in any order, repeated or missing, with parts
that the reader does not know, with either kind of line end. `Chunk.text` is the text and `meaning` the document that
it stands for. Nothing here refers to the parser; the names are those of the format.
-/

namespace Verif.Mqo

open Verif.Geom Verif.Text

/-- A number as it is written. -/
structure Num where
  neg : Bool
  lit : Lit

def Num.text (n : Num) : Str := if n.neg then '-' :: n.lit.text else n.lit.text

def Num.Ok (n : Num) : Prop := n.lit.Ok

structure Num3 where
  x : Num
  y : Num
  z : Num

def Num3.text (n : Num3) : Str := n.x.text ++ ' ' :: (n.y.text ++ ' ' :: n.z.text)

def Num3.Ok (n : Num3) : Prop := n.x.Ok ∧ n.y.Ok ∧ n.z.Ok

/-- A value of an unknown part. -/
inductive Item where
  | word (w : Str)
  | num (n : Num)
  | str (t : Str)

def Item.text : Item → Str
  | .word w => w
  | .num n => n.text
  | .str t => quote t

def Item.Ok : Item → Prop
  | .word w => isWord w = true
  | .num n => n.Ok
  | .str t => Plain t

/-- The item is not one of the words `known`. -/
def Item.Not (known : List Str) : Item → Prop
  | .word w => w ∉ known
  | _ => True

/-- How lines end and are indented. -/
structure Style where
  nl : Str
  tab : Str

structure Style.Ok (st : Style) : Prop where
  nl : st.nl = ['\n'] ∨ st.nl = ['\r', '\n']
  tab : ∀ c ∈ st.tab, c = ' ' ∨ c = '\t'

/-- Inside of an unknown block. -/
inductive Inner where
  | item (i : Item)
  | opening
  | closing

def Inner.text : Inner → Str
  | .item i => i.text
  | .opening => ['{']
  | .closing => ['}']

def Inner.Ok : Inner → Prop
  | .item i => i.Ok
  | _ => True

/-- Braces are closed, `n` are open. -/
def Balanced : Nat → List (Inner × Str) → Prop
  | n, [] => n = 0
  | n, (.item _, _) :: l => Balanced n l
  | n, (.opening, _) :: l => Balanced (n + 1) l
  | 0, (.closing, _) :: _ => False
  | n + 1, (.closing, _) :: l => Balanced n l

/-- White space behind each token. -/
def innerText (l : List (Inner × Str)) : Str := l.flatMap fun p => p.1.text ++ p.2

def InnerOk (l : List (Inner × Str)) : Prop :=
  ∀ p ∈ l, p.1.Ok ∧ p.2 ≠ [] ∧ ∀ c ∈ p.2, c = ' ' ∨ c = '\t' ∨ c = '\n' ∨ c = '\r'

/-- An entry that the reader does not know: a key and values, or a key, values and a block. -/
inductive Unknown where
  | line (key : Str) (vals : List Item)
  | block (key : Str) (vals : List Item) (body : List (Inner × Str))

def itemsText (l : List Item) : Str := l.flatMap fun i => ' ' :: i.text

def Unknown.text (st : Style) (ind : Str) : Unknown → Str
  | .line key vals => ind ++ (key ++ (itemsText vals ++ st.nl))
  | .block key vals body =>
    ind ++ (key ++ (itemsText vals ++ (" {".toList ++ (st.nl ++ (innerText body ++ ('}' :: st.nl))))))

def Unknown.Ok (known : List Str) : Unknown → Prop
  | .line key vals => isWord key = true ∧ key ∉ known ∧ ∀ i ∈ vals, i.Ok ∧ i.Not known
  | .block key vals body => isWord key = true ∧ key ∉ known ∧ (∀ i ∈ vals, i.Ok ∧ i.Not known) ∧ InnerOk body ∧
      Balanced 0 body

/-- An entry `key value`. -/
def Style.entry (st : Style) (ind key value : Str) : Str := ind ++ (key ++ ' ' :: (value ++ st.nl))

/-- A counted block. -/
def Style.array {β : Type} (st : Style) (ind : Str) (txt : β → Str) (l : List β) : Str :=
  showNat l.length ++ (" {".toList ++ (st.nl ++ (l.flatMap txt ++ (ind ++ ['}']))))

section
variable {F : Type} [Zero F] [One F] [Neg F] [Mul F] [NumText F]

def Num.value (n : Num) : F := if n.neg then NumText.parse n.lit.text * (-1) else NumText.parse n.lit.text * 1

def Num3.value (n : Num3) : Vec3 F := ⟨n.x.value, n.y.value, n.z.value⟩

/-! ## Materials -/

inductive MatAttr where
  | col (r g b a : Num)
  | emiCol (c : Num3)
  | dif (x : Num)
  | amb (x : Num)
  | emi (x : Num)
  | spc (x : Num)
  | power (x : Num)
  | tex (t : Str)
  | aplane (t : Str)
  | bump (t : Str)
  | dbls (n : Nat)
  | uid (n : Nat)
  | shader (n : Nat)
  | other (name : Str) (vals : List Item)

def materialKeys : List Str :=
  ["col", "emi_col", "dif", "amb", "emi", "spc", "power", "tex", "aplane", "bump", "dbls", "uid", "shader"].map
    String.toList

def MatAttr.name : MatAttr → Str
  | .col .. => "col".toList
  | .emiCol _ => "emi_col".toList
  | .dif _ => "dif".toList
  | .amb _ => "amb".toList
  | .emi _ => "emi".toList
  | .spc _ => "spc".toList
  | .power _ => "power".toList
  | .tex _ => "tex".toList
  | .aplane _ => "aplane".toList
  | .bump _ => "bump".toList
  | .dbls _ => "dbls".toList
  | .uid _ => "uid".toList
  | .shader _ => "shader".toList
  | .other name _ => name

def MatAttr.value : MatAttr → Str
  | .col r g b a => spaced [r.text, g.text, b.text, a.text]
  | .emiCol c => c.text
  | .dif x | .amb x | .emi x | .spc x | .power x => x.text
  | .tex t | .aplane t | .bump t => quote t
  | .dbls n | .uid n | .shader n => showNat n
  | .other _ vals => spaced (vals.map Item.text)

def MatAttr.Ok : MatAttr → Prop
  | .col r g b a => r.Ok ∧ g.Ok ∧ b.Ok ∧ a.Ok
  | .emiCol c => c.Ok
  | .dif x | .amb x | .emi x | .spc x | .power x => x.Ok
  | .tex t | .aplane t | .bump t => Plain t
  | .dbls n | .uid n | .shader n => n ≤ maxInt
  | .other name vals => isWord name = true ∧ name ∉ materialKeys ∧ ∀ i ∈ vals, i.Ok

def MatAttr.text (a : MatAttr) : Str := attr a.name a.value

/-- What the attribute says. -/
def MatAttr.set (m : Material F) : MatAttr → Material F
  | .col r g b a => { m with color := ⟨r.value, g.value, b.value, a.value⟩ }
  | .emiCol c => { m with emissionColor := some c.value }
  | .dif x => { m with diffuse := x.value }
  | .amb x => { m with ambient := x.value }
  | .emi x => { m with emission := x.value }
  | .spc x => { m with specular := x.value }
  | .power x => { m with power := x.value }
  | .tex t => { m with texture := t }
  | .aplane t => { m with alphaTexture := t }
  | .bump t => { m with bumpTexture := t }
  | .dbls n => { m with doubleSided := decide (n ≠ 0) }
  | .uid n => { m with uid := n }
  | .shader n => { m with shader := n }
  | .other .. => m

structure MatSrc where
  name : Str
  attrs : List MatAttr

structure MatSrc.Ok (m : MatSrc) : Prop where
  name : Plain m.name
  some : m.attrs ≠ []
  attrs : ∀ a ∈ m.attrs, a.Ok

def MatSrc.text (st : Style) (m : MatSrc) : Str :=
  st.tab ++ (quote m.name ++ (m.attrs.flatMap MatAttr.text ++ st.nl))

/-- A material without attributes: all values are zero. -/
def blankMaterial (name : Str) : Material F where
  name := name
  uid := 0
  color := ⟨0, 0, 0, 0⟩
  diffuse := 0
  ambient := 0
  emission := 0
  specular := 0
  power := 0
  texture := []
  bumpTexture := []
  alphaTexture := []
  emissionColor := none
  doubleSided := false
  shader := 0
  ex2 := none

def MatSrc.meaning (m : MatSrc) : Material F := m.attrs.foldl MatAttr.set (blankMaterial m.name)

/-! ## Faces -/

inductive FaceAttr where
  | verts (l : List Nat)
  | mat (n : Nat)
  | uvs (l : List (Num × Num))
  /-- one flag per corner; a normal for each flag with the second bit -/
  | normals (flags : List Nat) (vs : List Num3)
  | crs (l : List Num)
  | uid (n : Nat)
  | other (name : Str) (vals : List Item)

def faceKeys : List Str := ["V", "M", "UV", "N", "CRS", "UID"].map String.toList

def FaceAttr.name : FaceAttr → Str
  | .verts _ => "V".toList
  | .mat _ => "M".toList
  | .uvs _ => "UV".toList
  | .normals .. => "N".toList
  | .crs _ => "CRS".toList
  | .uid _ => "UID".toList
  | .other name _ => name

def FaceAttr.value : FaceAttr → Str
  | .verts l => spaced (l.map showNat)
  | .mat n | .uid n => showNat n
  | .uvs l => spaced (l.map fun p => p.1.text ++ ' ' :: p.2.text)
  | .normals flags vs => spaced (flags.map showNat) ++ vs.flatMap fun v => ' ' :: v.text
  | .crs l => spaced (l.map Num.text)
  | .other _ vals => spaced (vals.map Item.text)

/-- Whether a corner has a normal of its own. -/
def hasNormal (flag : Nat) : Bool := flag &&& 2 != 0

def FaceAttr.Ok (corners : Nat) : FaceAttr → Prop
  | .verts l => l.length = corners ∧ ∀ i ∈ l, i ≤ maxInt
  | .mat n | .uid n => n ≤ maxInt
  | .uvs l => l.length = corners ∧ ∀ p ∈ l, p.1.Ok ∧ p.2.Ok
  | .normals flags vs => flags.length = corners ∧ (∀ i ∈ flags, i ≤ maxInt) ∧
      vs.length = (flags.filter hasNormal).length ∧ ∀ v ∈ vs, v.Ok
  | .crs l => l.length = corners ∧ ∀ x ∈ l, x.Ok
  | .other name vals => isWord name = true ∧ name ∉ faceKeys ∧ ∀ i ∈ vals, i.Ok

def FaceAttr.text (a : FaceAttr) : Str := attr a.name a.value

/-- The normals of the corners, in order. -/
def cornerNormals : List Nat → List Num3 → List (Option (Vec3 F))
  | [], _ => []
  | f :: fs, normals =>
    if hasNormal f then
      match normals with
      | [] => none :: cornerNormals fs []
      | v :: vs => some v.value :: cornerNormals fs vs
    else none :: cornerNormals fs normals

def FaceAttr.set (f : Face F) : FaceAttr → Face F
  | .verts l => { f with verts := l }
  | .mat n => { f with material := n }
  | .uvs l => { f with uvs := l.map fun p => ⟨p.1.value, p.2.value⟩ }
  | .normals flags vs => { f with normals := cornerNormals flags vs }
  | .uid n => { f with uid := n }
  | _ => f

structure FaceSrc where
  corners : Nat
  attrs : List FaceAttr

structure FaceSrc.Ok (f : FaceSrc) : Prop where
  corners : f.corners ≤ maxInt
  some : f.attrs ≠ []
  attrs : ∀ a ∈ f.attrs, a.Ok f.corners

def FaceSrc.text (st : Style) (f : FaceSrc) : Str :=
  st.tab ++ (showNat f.corners ++ (f.attrs.flatMap FaceAttr.text ++ st.nl))

def FaceSrc.meaning (f : FaceSrc) : Face F := f.attrs.foldl FaceAttr.set ⟨0, [], 0, [], []⟩

/-! ## Objects -/

/-- Entries of `vertexattr`. -/
inductive VertexEntry where
  | uid (l : List Nat)
  | other (u : Unknown)

def vertexKeys : List Str := ["uid".toList]

def VertexEntry.text (st : Style) : VertexEntry → Str
  | .uid l => st.tab ++ ("uid {".toList ++ (st.nl ++ (l.flatMap (fun n => st.tab ++ (showNat n ++ st.nl)) ++
      (st.tab ++ ('}' :: st.nl)))))
  | .other u => u.text st st.tab

/-- One id per vertex. -/
def VertexEntry.Ok (vertices : Nat) : VertexEntry → Prop
  | .uid l => l.length = vertices ∧ ∀ i ∈ l, i ≤ maxInt
  | .other u => u.Ok vertexKeys

/-- The ids with the vertex of each, from vertex `i` on. -/
def idsOf : Nat → List Nat → List (Int × Int) → List (Int × Int)
  | _, [], m => m
  | i, n :: l, m => idsOf (i + 1) l (setKey (n : Int) (i : Int) m)

def VertexEntry.set (o : Object F) : VertexEntry → Object F
  | .uid l => { o with vertexByUID := idsOf 0 l o.vertexByUID }
  | .other _ => o

inductive ObjEntry where
  | uid (n : Nat)
  | depth (n : Nat)
  | folding (n : Nat)
  | visible (n : Nat)
  | shading (n : Nat)
  | facet (x : Num)
  | patch (n : Nat)
  | segment (n : Nat)
  | mirror (n : Nat)
  | mirrorDis (x : Num)
  | scale (v : Num3)
  /-- in the order of the file: heading, pitch, bank -/
  | rotation (v : Num3)
  | translation (v : Num3)
  | color (v : Num3)
  | vertex (l : List Num3)
  | face (l : List FaceSrc)
  | vertexattr (l : List VertexEntry)
  | other (u : Unknown)

def objectKeys : List Str :=
  ["uid", "depth", "folding", "visible", "shading", "facet", "patch", "segment", "mirror", "mirror_dis", "scale",
    "rotation", "translation", "color", "vertex", "face", "vertexattr"].map String.toList

def ObjEntry.text (st : Style) : ObjEntry → Str
  | .uid n => st.entry st.tab "uid".toList (showNat n)
  | .depth n => st.entry st.tab "depth".toList (showNat n)
  | .folding n => st.entry st.tab "folding".toList (showNat n)
  | .visible n => st.entry st.tab "visible".toList (showNat n)
  | .shading n => st.entry st.tab "shading".toList (showNat n)
  | .facet x => st.entry st.tab "facet".toList x.text
  | .patch n => st.entry st.tab "patch".toList (showNat n)
  | .segment n => st.entry st.tab "segment".toList (showNat n)
  | .mirror n => st.entry st.tab "mirror".toList (showNat n)
  | .mirrorDis x => st.entry st.tab "mirror_dis".toList x.text
  | .scale v => st.entry st.tab "scale".toList v.text
  | .rotation v => st.entry st.tab "rotation".toList v.text
  | .translation v => st.entry st.tab "translation".toList v.text
  | .color v => st.entry st.tab "color".toList v.text
  | .vertex l => st.entry st.tab "vertex".toList (st.array st.tab (fun v : Num3 => st.tab ++ (v.text ++ st.nl)) l)
  | .face l => st.entry st.tab "face".toList (st.array st.tab (FaceSrc.text st) l)
  | .vertexattr l => st.entry st.tab "vertexattr".toList
      ('{' :: (st.nl ++ (l.flatMap (VertexEntry.text st) ++ (st.tab ++ ['}']))))
  | .other u => u.text st st.tab

/-- The entry can follow entries that say `o`. -/
def ObjEntry.Ok (o : Object F) : ObjEntry → Prop
  | .uid n | .depth n | .folding n | .visible n | .shading n | .patch n | .segment n | .mirror n => n ≤ maxInt
  | .facet x | .mirrorDis x => x.Ok
  | .scale v | .rotation v | .translation v | .color v => v.Ok
  | .vertex l => l.length ≤ maxInt ∧ ∀ v ∈ l, v.Ok
  | .face l => l.length ≤ maxInt ∧ ∀ f ∈ l, f.Ok
  | .vertexattr l => ∀ e ∈ l, e.Ok o.vertexes.length
  | .other u => u.Ok objectKeys

def ObjEntry.set (o : Object F) : ObjEntry → Object F
  | .uid n => { o with uid := n }
  | .depth n => { o with depth := n }
  | .folding n => { o with folding := decide (0 < n) }
  | .visible n => { o with visible := decide (0 < n) }
  | .shading n => { o with shading := n }
  | .facet x => { o with facet := x.value }
  | .patch n => { o with patch := n }
  | .segment n => { o with patchSegment := n }
  | .mirror n => { o with mirror := n }
  | .mirrorDis x => { o with mirrorDis := x.value }
  | .scale v => { o with scale := some v.value }
  | .rotation v => { o with rotation := some ⟨v.y.value, v.x.value, v.z.value⟩ }
  | .translation v => { o with translation := some v.value }
  | .color v => { o with color := some v.value }
  | .vertex l => { o with vertexes := l.map Num3.value }
  | .face l => { o with faces := l.map FaceSrc.meaning }
  | .vertexattr l => l.foldl VertexEntry.set o
  | .other _ => o

def EntriesOk : Object F → List ObjEntry → Prop
  | _, [] => True
  | o, e :: l => e.Ok o ∧ EntriesOk (e.set o) l

structure ObjSrc where
  name : Str
  entries : List ObjEntry

structure ObjSrc.Ok (o : ObjSrc) : Prop where
  name : Plain o.name
  entries : EntriesOk (newObject (NumText.facet : F) o.name) o.entries

/-- The object that the entries describe. Without entries it is that of `NewObject`, mqo/mqo.go. -/
def ObjSrc.meaning (o : ObjSrc) : Object F := o.entries.foldl ObjEntry.set (newObject NumText.facet o.name)

/-! ## Scenes -/

inductive SceneEntry where
  | pos (v : Num3)
  | lookat (v : Num3)
  | head (x : Num)
  | pich (x : Num)
  | bank (x : Num)
  | ortho (n : Nat)
  | zoom2 (x : Num)
  | amb (v : Num3)
  | frontclip (x : Num)
  | backclip (x : Num)
  | other (u : Unknown)

def sceneKeys : List Str :=
  ["pos", "lookat", "head", "pich", "bank", "ortho", "zoom2", "amb", "frontclip", "backclip"].map String.toList

def SceneEntry.text (st : Style) : SceneEntry → Str
  | .pos v => st.entry st.tab "pos".toList v.text
  | .lookat v => st.entry st.tab "lookat".toList v.text
  | .head x => st.entry st.tab "head".toList x.text
  | .pich x => st.entry st.tab "pich".toList x.text
  | .bank x => st.entry st.tab "bank".toList x.text
  | .ortho n => st.entry st.tab "ortho".toList (showNat n)
  | .zoom2 x => st.entry st.tab "zoom2".toList x.text
  | .amb v => st.entry st.tab "amb".toList v.text
  | .frontclip x => st.entry st.tab "frontclip".toList x.text
  | .backclip x => st.entry st.tab "backclip".toList x.text
  | .other u => u.text st st.tab

def SceneEntry.Ok : SceneEntry → Prop
  | .pos v | .lookat v | .amb v => v.Ok
  | .head x | .pich x | .bank x | .zoom2 x | .frontclip x | .backclip x => x.Ok
  | .ortho n => n ≤ maxInt
  | .other u => u.Ok sceneKeys

def SceneEntry.set (s : Scene F) : SceneEntry → Scene F
  | .pos v => { s with cameraPos := v.value }
  | .lookat v => { s with cameraLookAt := v.value }
  | .head x => { s with cameraRot := { s.cameraRot with y := x.value } }
  | .pich x => { s with cameraRot := { s.cameraRot with x := x.value } }
  | .bank x => { s with cameraRot := { s.cameraRot with z := x.value } }
  | .ortho n => { s with ortho := decide (0 < n) }
  | .zoom2 x => { s with zoom2 := x.value }
  | .amb v => { s with ambientLight := some v.value }
  | .frontclip x => { s with frontClip := x.value }
  | .backclip x => { s with backClip := x.value }
  | .other _ => s

def blankScene : Scene F where
  cameraPos := ⟨0, 0, 0⟩
  cameraLookAt := ⟨0, 0, 0⟩
  cameraRot := ⟨0, 0, 0⟩
  zoom2 := 0
  frontClip := 0
  backClip := 0
  ortho := false
  ambientLight := none

/-! ## Second materials -/

/-- A name, bare or in quotes. -/
inductive Key where
  | word (w : Str)
  | quoted (t : Str)

def Key.text : Key → Str
  | .word w => w
  | .quoted t => quote t

def Key.value : Key → Str
  | .word w => w
  | .quoted t => t

def Key.Ok : Key → Prop
  | .word w => isWord w = true
  | .quoted t => Plain t

inductive PName where
  | one (k : Key)
  | dotted (a b : Str)

def PName.text : PName → Str
  | .one k => k.text
  | .dotted a b => a ++ '.' :: b

def PName.value : PName → Str
  | .one k => k.value
  | .dotted a b => a ++ '.' :: b

def PName.Ok : PName → Prop
  | .one k => k.Ok
  | .dotted a b => isWord a = true ∧ isWord b = true

/-- The value of a parameter; a boolean is a word or a digit, other types have a text. -/
inductive ParamVal where
  | int (n : Nat)
  | float (x : Num)
  | bool (b : Bool) (word : Bool)
  | color (r g b a : Num)
  | other (type : Str) (t : Str)

def ParamVal.type : ParamVal → Str
  | .int _ => "int".toList
  | .float _ => "float".toList
  | .bool .. => "bool".toList
  | .color .. => "color".toList
  | .other type _ => type

def ParamVal.text : ParamVal → Str
  | .int n => showNat n
  | .float x => x.text
  | .bool true true => "true".toList
  | .bool false true => "false".toList
  | .bool true false => "1".toList
  | .bool false false => "0".toList
  | .color r g b a => r.text ++ ' ' :: (g.text ++ ' ' :: (b.text ++ ' ' :: a.text))
  | .other _ t => quote t

def ParamVal.value : ParamVal → Param F
  | .int n => .int n
  | .float x => .float x.value
  | .bool b _ => .bool b
  | .color r g b a => .color [r.value, g.value, b.value, a.value]
  | .other _ t => .str t

def paramTypes : List Str := ["int", "float", "bool", "color"].map String.toList

def ParamVal.Ok : ParamVal → Prop
  | .int n => n ≤ maxInt
  | .float x => x.Ok
  | .bool .. => True
  | .color r g b a => r.Ok ∧ g.Ok ∧ b.Ok ∧ a.Ok
  | .other type t => isWord type = true ∧ type ∉ paramTypes ∧ Plain t

structure ParamSrc where
  name : PName
  val : ParamVal

def ParamSrc.Ok (p : ParamSrc) : Prop := p.name.Ok ∧ p.val.Ok

def ParamSrc.text (st : Style) (p : ParamSrc) : Str :=
  st.tab ++ (p.name.text ++ ' ' :: (p.val.type ++ ' ' :: (p.val.text ++ st.nl)))

/-- The parameters by name; the last one of a name counts. -/
def paramsOf (l : List ParamSrc) : List (Str × Param F) :=
  l.foldl (fun m p => setKey p.name.value p.val.value m) []

inductive ExEntry where
  | type (t : Str)
  | name (t : Str)
  | params (l : List ParamSrc)
  | mapping (l : List (Key × Str))
  | mappingParams (map : Str) (l : List ParamSrc)
  | other (u : Unknown)

def exKeys : List Str :=
  ["shadertype", "shadername", "shaderparam", "shadermapping", "shadermappingparam"].map String.toList

def ExEntry.text (st : Style) : ExEntry → Str
  | .type t => st.entry st.tab "shadertype".toList (quote t)
  | .name t => st.entry st.tab "shadername".toList (quote t)
  | .params l => st.entry st.tab "shaderparam".toList (st.array st.tab (ParamSrc.text st) l)
  | .mapping l => st.entry st.tab "shadermapping".toList
      (st.array st.tab (fun p : Key × Str => st.tab ++ (p.1.text ++ ' ' :: (quote p.2 ++ st.nl))) l)
  | .mappingParams map l => st.entry st.tab "shadermappingparam".toList
      (quote map ++ ' ' :: st.array st.tab (ParamSrc.text st) l)
  | .other u => u.text st st.tab

def ExEntry.Ok : ExEntry → Prop
  | .type t | .name t => Plain t
  | .params l => l.length ≤ maxInt ∧ ∀ p ∈ l, p.Ok
  | .mapping l => l.length ≤ maxInt ∧ ∀ p ∈ l, p.1.Ok ∧ Plain p.2
  | .mappingParams map l => Plain map ∧ l.length ≤ maxInt ∧ ∀ p ∈ l, p.Ok
  | .other u => u.Ok exKeys

def ExEntry.set (e : Ex2 F) : ExEntry → Ex2 F
  | .type t => { e with shaderType := t }
  | .name t => { e with shaderName := t }
  | .params l => { e with shaderParams := paramsOf l }
  | .mapping l => { e with shaderMapping := l.foldl (fun m p => setKey p.1.value p.2 m) [] }
  | .mappingParams map l => { e with shaderMappingParams := setKey map (paramsOf l) e.shaderMappingParams }
  | .other _ => e

/-- The second part of the material with number `index`. -/
structure ExSrc where
  index : Nat
  entries : List ExEntry

structure ExSrc.Ok (e : ExSrc) : Prop where
  index : e.index ≤ maxInt
  entries : ∀ a ∈ e.entries, a.Ok

def ExSrc.text (st : Style) (e : ExSrc) : Str :=
  st.tab ++ ("material ".toList ++ (showNat e.index ++ (" {".toList ++ (st.nl ++
    (e.entries.flatMap (ExEntry.text st) ++ (st.tab ++ ('}' :: st.nl)))))))

def ExSrc.meaning (e : ExSrc) : Ex2 F := e.entries.foldl ExEntry.set ⟨[], [], [], [], []⟩

/-- The second part is added to the material, if there is one with the number. -/
def ExSrc.put (l : List (Material F)) (e : ExSrc) : List (Material F) :=
  l.modify e.index fun m => { m with ex2 := some e.meaning }

/-! ## Documents -/

/-- A thumbnail: size, depth, two words and the picture in hexadecimal digits. -/
structure Thumb where
  width : Nat
  height : Nat
  depth : Nat
  format : Str
  coding : Str
  body : Str

structure Thumb.Ok (t : Thumb) : Prop where
  format : isWord t.format = true
  coding : isWord t.coding = true
  body : ∀ c ∈ t.body, isHex c = true ∨ c = ' ' ∨ c = '\t' ∨ c = '\n' ∨ c = '\r'

def Thumb.text (st : Style) (t : Thumb) : Str :=
  "Thumbnail ".toList ++ (showNat t.width ++ ' ' :: (showNat t.height ++ ' ' :: (showNat t.depth ++ ' ' ::
    (t.format ++ ' ' :: (t.coding ++ (" {".toList ++ (st.nl ++ (t.body ++ ('}' :: st.nl)))))))))

inductive Chunk where
  | scene (l : List SceneEntry)
  | materials (l : List MatSrc)
  | object (o : ObjSrc)
  | ex (l : List ExSrc)
  | thumb (t : Thumb)
  /-- the name of the file with the data of plugins -/
  | xml (file : Str)
  /-- anything else: words, numbers, texts and braces -/
  | other (l : List (Inner × Str))

def chunkKeys : List Str :=
  ["Material", "Object", "Thumbnail", "MaterialEx2", "Scene", "IncludeXml", "Eof"].map String.toList

def Chunk.text (st : Style) : Chunk → Str
  | .scene l => "Scene {".toList ++ (st.nl ++ (l.flatMap (SceneEntry.text st) ++ ('}' :: st.nl)))
  | .materials l => "Material ".toList ++ (st.array [] (MatSrc.text st) l ++ st.nl)
  | .object o => "Object ".toList ++ (quote o.name ++ (" {".toList ++ (st.nl ++
      (o.entries.flatMap (ObjEntry.text st) ++ ('}' :: st.nl)))))
  | .ex l => "MaterialEx2 ".toList ++ (st.array [] (ExSrc.text st) l ++ st.nl)
  | .thumb t => t.text st
  | .xml file => "IncludeXml ".toList ++ (quote file ++ st.nl)
  | .other l => innerText l

variable (F) in
def Chunk.Ok : Chunk → Prop
  | .scene l => ∀ e ∈ l, e.Ok
  | .materials l => l.length ≤ maxInt ∧ ∀ m ∈ l, m.Ok
  | .object o => o.Ok (F := F)
  | .ex l => l.length ≤ maxInt ∧ ∀ e ∈ l, e.Ok
  | .thumb t => t.Ok
  | .xml file => Plain file
  | .other l => InnerOk l ∧ ∀ p ∈ l, ∀ i, p.1 = .item i → i.Not chunkKeys

def Chunk.add (d : Document F) : Chunk → Document F
  | .scene l => { d with scene := some (l.foldl SceneEntry.set blankScene) }
  | .materials l => { d with materials := d.materials ++ l.map MatSrc.meaning }
  | .object o => { d with objects := d.objects ++ [o.meaning] }
  | .ex l => { d with materials := l.foldl ExSrc.put d.materials }
  | .thumb _ => d
  | .xml _ => d
  | .other _ => d

/-- The document that the chunks describe. -/
def meaning (l : List Chunk) : Document F := l.foldl Chunk.add ⟨none, [], [], none, none, none⟩

end

end Verif.Mqo
