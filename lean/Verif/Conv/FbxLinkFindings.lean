import Verif.Conv.FbxLinkProps
import Verif.Conv.FbxConvFindings
import Verif.Fbx.EditFindings

/-!
C179, C180: a file that meets the hypotheses, and the files of version 6100 that lose their objects.
-/

namespace Verif.Conv

open Verif.Geom
open Verif.Mqo (Str Object Face MorphTargetList)
open Verif.Mmd (Bytes)
open Verif.Fbx hiding Conv
open Verif.Fbx.FDoc

/-! ## Version 6100 -/

section

variable {F : Type} [Field F] [DecidableEq F] [FloatOps F]

/-- C179 is false of saved files of version 6100: saved as text and loaded they are converted to no objects,
whatever models and meshes they have. -/
theorem saved6100_objects_false (facet : F) (env : FbxEnv F) (tenv : TextEnv) (z : Zlib) (seek : Bool) (root : Node)
    (hs : NodesSafe tenv (root.children.filter fun n => n.name ≠ b! "FileId")) (hv : versionOf root = 6100)
    (hver : ∀ n, findChild (findChild (some root) b! "FBXHeaderExtension") b! "FBXVersion" = some n → HasID n)
    (hc : ∀ c ∈ fileConnections root, ∃ kind a b rest, c.attrs = .str kind :: .str a :: .str b :: rest) :
    ∃ root', parseFile tenv z seek (writeText tenv root.children) = some (some root') ∧
      (fileObjects root').length = (fileObjects root).length ∧
      ∀ sc, env.sceneOf (build root') = some sc → ∀ opt fuel base objects morphs r, opt.targetModelName = [] →
        fbxConvert facet sc opt fuel base objects morphs = some r → r.objects = objects := by
  obtain ⟨root', h1, -, h3, h4⟩ := saved6100_false tenv z seek root hs hv hver hc
  refine ⟨root', h1, h3, ?_⟩
  intro sc hsc opt fuel base objects morphs r ht h
  obtain ⟨hz, -, -, -, hmod, hno⟩ := sceneOf_fields env _ sc hsc
  have hch : (sc.model sc.scene).children = [] := by
    rw [hz]
    by_cases hl : 0 < (build root').objs.length
    · by_cases hi : (build root').isModel 0 = true
      · rw [(model_fields env _ 0 _ (hmod 0 hl) hi).2.2.2.2.1, h4]
      · rw [model_nothing env _ 0 _ (hmod 0 hl) hi]; rfl
    · rw [hno 0 (by omega)]; rfl
  simp only [fbxConvert, ht, ne_eq, not_true, if_false, hch, wantedModels, List.foldlM_nil] at h
  simp only [Option.pure_def, Option.map_some, Option.some.injEq] at h
  rw [← h]
  rfl

end

/-! ## Examples -/

local instance ratOpsFbxLink : FloatOps ℚ := ⟨id, fun a b => decide (a < b), fun a b => decide (a ≤ b)⟩

/-- Numbers of the sample: a number stands for itself. -/
def modelFileEnv : FbxEnv ℚ where
  cv := toyConv
  value := fun b => b.toNat
  text := fun b => b.map fun c => Char.ofNat c.toNat
  rot := fun _ => Mat4.one

/-- A box at (10, 0, 0), a lid on it with a mesh of its own at (0, 5, 0), a lamp without mesh in the box, a bone
under the scene, and an empty model under the scene. The axes of the file are turned: y is depth, z is up. -/
def modelFile : Node :=
  let mesh (id : Nat) (size : Nat) : Node := .mk b! "Geometry" [.num .i64 id, .str b! "Geometry::", .str b! "Mesh"]
    [.leaf b! "Vertices" [.arr .f32 [0, 0, 0, size, 0, 0, size, size, 1]],
     .leaf b! "PolygonVertexIndex" [.arr .i32 [0, 1, 4294967293]]]
  let model (id : Nat) (name kind : Bytes) (props : List Node) : Node :=
    .mk b! "Model" [.num .i64 id, .str (name ++ 0 :: 1 :: b! "Model"), .str kind] [.mk b! "Properties70" [] props]
  let move (x y z : Nat) : Node := .leaf b! "P" [.str b! "Lcl Translation", .str b! "Lcl Translation", .str [], .str b! "A",
    .num .f32 x, .num .f32 y, .num .f32 z]
  let setting (name : Bytes) (v : Nat) : Node := .leaf b! "P" [.str name, .str b! "int", .str b! "Integer", .str [], .num .i32 v]
  let link (a b : Nat) : Node := .leaf b! "C" [.str b! "OO", .num .i64 a, .num .i64 b]
  .mk [] [] [.mk b! "GlobalSettings" [] [.mk b! "Properties70" []
      [setting b! "UpAxis" 2, setting b! "UpAxisSign" 1, setting b! "FrontAxis" 1, setting b! "FrontAxisSign" 1,
       setting b! "CoordAxis" 0, setting b! "CoordAxisSign" 1]],
    .mk b! "Objects" []
      [model 70 b! "Box" b! "Mesh" [move 10 0 0], mesh 71 3, model 80 b! "Lid" b! "Mesh" [move 0 5 0], mesh 81 2,
       model 90 b! "Lamp" b! "Null" [], model 91 b! "Hips" b! "LimbNode" [], model 92 b! "Empty" b! "Null" []],
    .mk b! "Connections" []
      [link 71 70, link 70 0, link 80 70, link 81 80, link 90 70, link 91 0, link 92 0]]

def modelFileScene : Option (FScene ℚ) := modelFileEnv.sceneOf (build modelFile)

def modelFileConverted : Option (FResult ℚ) :=
  modelFileScene.bind fun sc => fbxConvert (119 / 2) sc FOptions.default 9 0 [] []

/-- The hypotheses of `objects_of_file` and `vertices_of_file` hold of the sample and the conversion ends: the
objects, their depth, vertices and faces. -/
example : versionOf modelFile ≠ 6100 ∧ DistinctIDs modelFile ∧ FileTree modelFile ∧ modelFileScene.isSome = true ∧
    (FOptions.default : FOptions ℚ).targetModelName = [] ∧ (FOptions.default : FOptions ℚ).objectDepth ≤ 0 ∧
    modelFileConverted.map (fun r => r.objects.map fun o => (o.name, o.depth)) =
      some [("Box".toList, 0), ("Lid".toList, 1), ("Lamp".toList, 1)] ∧
    modelFileConverted.map (fun r => r.objects.map fun o => o.vertexes) =
      some [[⟨10, 0, 0⟩, ⟨13, 0, 0⟩, ⟨13, 1, 3⟩], [⟨10, 0, 5⟩, ⟨12, 0, 5⟩, ⟨12, 1, 7⟩], []] ∧
    modelFileConverted.map (fun r => r.objects.map fun o => o.faces.map Face.verts) = some [[[2, 1, 0]], [[2, 1, 0]], []] := by
  refine ⟨by decide +kernel, by unfold DistinctIDs; decide +kernel, by unfold FileTree; decide +kernel,
    by decide +kernel, by decide +kernel, by decide +kernel, by decide +kernel, by decide +kernel, by decide +kernel⟩

end Verif.Conv
