import Verif.Conv.UnityTree
import Verif.Unity.SceneProps
import Verif.Unity.SceneNested
import Mathlib.Data.List.Forall2
import Mathlib.Data.List.Perm.Basic

/-! Game objects as Unity files describe them: with the instances of prefabs in them, at any depth. -/

namespace Verif.Conv

open Verif.Geom
open Verif.Mqo (Object)
open Verif.Unity

variable {F : Type}

/-- A game object: itself, the children its transform lists, and further instances of prefabs put under it. -/
inductive FTree (F : Type) where
  | node (x : UNode F) (listed further : List (FTree F))

mutual

/-- The game objects of a tree, parents before children; each with all those above it, from the root to itself. -/
def FTree.chains : FTree F → List (UNode F) → List (List (UNode F))
  | .node x a b, above => (above ++ [x]) :: (fchains a (above ++ [x]) ++ fchains b (above ++ [x]))

/-- The game objects of some trees. -/
def fchains : List (FTree F) → List (UNode F) → List (List (UNode F))
  | [], _ => []
  | t :: ts, above => t.chains above ++ fchains ts above

end

/-- The same tree up to the order of the instances that are not listed. -/
inductive FTree.Same : FTree F → FTree F → Prop
  | node (x : UNode F) (a a' b b' b'' : List (FTree F)) : List.Forall₂ FTree.Same a a' → List.Forall₂ FTree.Same b b' →
    b'.Perm b'' → FTree.Same (.node x a b) (.node x a' b'')

/-- A file with the modifications of an instance of it. -/
structure UFile (F : Type) where
  guid : Str
  mods : List (Modification F)
  docs : List (Int × Doc F)

/-- The document with an id is a transform. -/
def hasTransform (docs : List (Int × Doc F)) (k : Int) : Bool :=
  docs.any fun d => decide (d.1 = k) && match d.2 with
    | .transform _ => true
    | _ => false

/-- The transform of a game object: its first component that is one. -/
def transformId (docs : List (Int × Doc F)) (o : GameObject) : Option Int :=
  (o.components.map Ref.fileID).find? (hasTransform docs)

/-- A document that is a component, with the modifications. -/
def partWith [Field F] (trunc : F → Int) (mods : List (Modification F)) (j : Int) : Doc F → Option (Part F)
  | .renderer e ms => some (.renderer (changed mods j "m_Enabled" (fun _ => true) (fun m => m.value.integer trunc) e)
      (ms.mapIdx fun i x => changed mods j "m_Materials" (fun r => decide (r = .data i)) (fun m => m.reference) x))
  | .other c => some (.comp (changedComp trunc mods j c))
  | _ => none

/-- The component with an id. -/
def partAt [Field F] (trunc : F → Int) (f : UFile F) (j : Int) : Option (Part F) :=
  f.docs.findSome? fun d => if d.1 = j then partWith trunc f.mods j d.2 else none

/-- The file has the game object `k` with the transform `kt`, and they are not placeholders. `x` is what it looks like:
each value is that of the last modification that names it, else that of the file. -/
structure ObjectAt [Field F] (trunc : F → Int) (f : UFile F) (k kt : Int) (o : GameObject) (t : Transform F) (x : UNode F) : Prop where
  object : (k, Doc.object o) ∈ f.docs
  source : validRef o.source = false
  inst : validRef o.inst = false
  first : transformId f.docs o = some kt
  transform : (kt, Doc.transform t) ∈ f.docs
  back : t.gameObject.fileID = k
  tinst : validRef t.inst = false
  name : x.name = changed f.mods k "m_Name" (fun _ => true) (fun m => m.value.string) o.name
  active : x.active = decide (changed f.mods k "m_IsActive" (fun _ => true) (fun m => m.value.integer trunc) o.active ≠ 0)
  position : x.position = ⟨changed f.mods kt "m_LocalPosition" (comp "x") (fun m => m.value.number) t.position.x,
    changed f.mods kt "m_LocalPosition" (comp "y") (fun m => m.value.number) t.position.y,
    changed f.mods kt "m_LocalPosition" (comp "z") (fun m => m.value.number) t.position.z⟩
  rotation : x.rotation = ⟨changed f.mods kt "m_LocalRotation" (comp "x") (fun m => m.value.number) t.rotation.x,
    changed f.mods kt "m_LocalRotation" (comp "y") (fun m => m.value.number) t.rotation.y,
    changed f.mods kt "m_LocalRotation" (comp "z") (fun m => m.value.number) t.rotation.z,
    changed f.mods kt "m_LocalRotation" (comp "w") (fun m => m.value.number) t.rotation.w⟩
  scale : x.scale = ⟨changed f.mods kt "m_LocalScale" (comp "x") (fun m => m.value.number) t.scale.x,
    changed f.mods kt "m_LocalScale" (comp "y") (fun m => m.value.number) t.scale.y,
    changed f.mods kt "m_LocalScale" (comp "z") (fun m => m.value.number) t.scale.z⟩
  parts : x.parts = o.components.filterMap fun c => partAt trunc f c.fileID

/-- What is expected of every file: no id is 0, the parents of the instances are transforms of the file, and the game
objects of instances are marked by their source. -/
structure FileOk (docs : List (Int × Doc F)) : Prop where
  zero : (0 : Int) ∉ docs.map Prod.fst
  parents : Local docs
  own : ∀ k o, (k, Doc.object o) ∈ docs → validRef o.source = true ∨ validRef o.inst = false

/-- The transform `c` of the file is a placeholder for the transform `kt'` of the instance `j`. -/
def Placeholder (f : UFile F) (c j kt' : Int) : Prop :=
  ∃ ph src i, (c, Doc.transform ph) ∈ f.docs ∧ ph.gameObject.fileID = 0 ∧ ph.source = some src ∧ src.fileID = kt' ∧
    src.guid ≠ [] ∧ src.guid ≠ f.guid ∧ ph.inst = some i ∧ i.fileID = j

/-- `f'` is the file of the instance `j`, with its modifications. -/
def InstanceAt (assets : Str → Option (List (Int × Doc F))) (f : UFile F) (j : Int) (f' : UFile F) : Prop :=
  ∃ p, (j, Doc.prefab p) ∈ f.docs ∧ prefabDocs assets p = some (f'.guid, f'.docs) ∧ f'.mods = p.mods

/-- The document with the id `c` is a placeholder of the instance `j`. -/
def namesInstance (docs : List (Int × Doc F)) (c j : Int) : Bool :=
  docs.any fun d => decide (d.1 = c) && match d.2 with
    | .transform t => decide (t.gameObject.fileID = 0) && decide (t.inst.map Ref.fileID = some j)
    | _ => false

/-- The instances put under the transform `kt` that are not in its list of children. -/
def furtherOf (assets : Str → Option (List (Int × Doc F))) (f : UFile F) (kt : Int) (listed : List Int) : List (Int × UFile F) :=
  f.docs.filterMap fun d => match d.2 with
    | .prefab p =>
      if p.parent.map Ref.fileID = some kt ∧ (listed.any fun c => namesInstance f.docs c d.1) = false then
        (prefabDocs assets p).map fun g => (d.1, ⟨g.1, p.mods, g.2⟩)
      else none
    | _ => none

/-- A game object of the file is a root: it is no placeholder and its transform has no father. -/
def rootDoc (docs : List (Int × Doc F)) (o : GameObject) : Bool :=
  !validRef o.source && match transformId docs o with
    | some kt => docs.any fun d => decide (d.1 = kt) && match d.2 with
      | .transform t => decide (t.father.fileID = 0)
      | _ => false
    | none => false

/-- What a document adds to the roots: a game object of the file or the root of an instance. -/
def rootEntry (assets : Str → Option (List (Int × Doc F))) (docs : List (Int × Doc F)) (d : Int × Doc F) :
    Option (Int ⊕ (Int × UFile F)) :=
  match d.2 with
  | .object o => if rootDoc docs o then some (.inl d.1) else none
  | .prefab p =>
    if p.parent.map Ref.fileID = some 0 then (prefabDocs assets p).map fun g => .inr (d.1, ⟨g.1, p.mods, g.2⟩) else none
  | _ => none

/-- The game object `k` is the only root of a prefab. -/
def RootIs (assets : Str → Option (List (Int × Doc F))) (docs : List (Int × Doc F)) (k : Int) : Prop :=
  FileOk docs ∧ docs.filterMap (rootEntry assets docs) = [.inl k]

mutual

/-- The game object `k` of the file with the transform `kt` is the root of the tree. -/
def FTree.At [Field F] (trunc : F → Int) (assets : Str → Option (List (Int × Doc F))) (f : UFile F) (k kt : Int) : FTree F → Prop
  | .node x a b => ∃ o t, ObjectAt trunc f k kt o t x ∧ ListedAt trunc assets f (t.children.map Ref.fileID) a ∧
    FurtherAt trunc assets (furtherOf assets f kt (t.children.map Ref.fileID)) b

/-- The listed children are the trees: game objects of the file, or roots of instances named by placeholders. -/
def ListedAt [Field F] (trunc : F → Int) (assets : Str → Option (List (Int × Doc F))) (f : UFile F) (cs : List Int) : List (FTree F) → Prop
  | [] => cs = []
  | t :: ts => ∃ c cs', cs = c :: cs' ∧
    ((∃ k, t.At trunc assets f k c) ∨ ∃ j kt' k' f', Placeholder f c j kt' ∧ InstanceAt assets f j f' ∧ RootIs assets f'.docs k' ∧
      t.At trunc assets f' k' kt') ∧ ListedAt trunc assets f cs' ts

/-- The roots of the instances are the trees. -/
def FurtherAt [Field F] (trunc : F → Int) (assets : Str → Option (List (Int × Doc F))) (fs : List (Int × UFile F)) : List (FTree F) → Prop
  | [] => fs = []
  | t :: ts => ∃ j f' fs', fs = (j, f') :: fs' ∧ (∃ k' kt', RootIs assets f'.docs k' ∧ t.At trunc assets f' k' kt') ∧
    FurtherAt trunc assets fs' ts

end

/-- A root of the file is the tree. -/
def TopAt [Field F] (trunc : F → Int) (assets : Str → Option (List (Int × Doc F))) (f : UFile F) (t : FTree F) : Int ⊕ (Int × UFile F) → Prop
  | .inl k => ∃ kt, t.At trunc assets f k kt
  | .inr (_, f') => ∃ k' kt', RootIs assets f'.docs k' ∧ t.At trunc assets f' k' kt'

/-- The roots of the file are the trees. -/
def FileShows [Field F] (trunc : F → Int) (assets : Str → Option (List (Int × Doc F))) (f : UFile F) (trees : List (FTree F)) : Prop :=
  FileOk f.docs ∧ List.Forall₂ (TopAt trunc assets f) trees (f.docs.filterMap (rootEntry assets f.docs))

end Verif.Conv
