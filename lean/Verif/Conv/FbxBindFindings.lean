import Verif.Conv.FbxBindProps
import Verif.Conv.FbxLinkFindings

/-!
C193: a file with a bound mesh and a shape that meets the hypotheses.
-/

namespace Verif.Conv

open Verif.Geom
open Verif.Mqo (Str Object Bone VertexWeight WeightGroup MorphTargetList)
open Verif.Mmd (Bytes)
open Verif.Fbx hiding Conv
open Verif.Fbx.FDoc

local instance ratOpsFbxBind : FloatOps ℚ := ⟨id, fun a b => decide (a < b), fun a b => decide (a ≤ b)⟩

/-- A body at (10, 0, 0) with a mesh bound to the model Arm, which stands under Hips, and a shape that moves its
last vertex. -/
def boundFile : Node :=
  let model (id : Nat) (name kind : Bytes) (props : List Node) : Node :=
    .mk b! "Model" [.num .i64 id, .str (name ++ 0 :: 1 :: b! "Model"), .str kind] [.mk b! "Properties70" [] props]
  let move (x y z : Nat) : Node := .leaf b! "P" [.str b! "Lcl Translation", .str b! "Lcl Translation", .str [], .str b! "A",
    .num .f32 x, .num .f32 y, .num .f32 z]
  let deformer (id : Nat) (kind : Bytes) (children : List Node) : Node :=
    .mk b! "Deformer" [.num .i64 id, .str [0, 1], .str kind] children
  let link (a b : Nat) : Node := .leaf b! "C" [.str b! "OO", .num .i64 a, .num .i64 b]
  .mk [] [] [.mk b! "Objects" []
      [model 70 b! "Body" b! "Mesh" [move 10 0 0],
       .mk b! "Geometry" [.num .i64 71, .str b! "Geometry::", .str b! "Mesh"]
        [.leaf b! "Vertices" [.arr .f32 [0, 0, 0, 3, 0, 0, 3, 3, 1]],
         .leaf b! "PolygonVertexIndex" [.arr .i32 [0, 1, 4294967293]]],
       model 80 b! "Hips" b! "LimbNode" [move 0 6 0], model 81 b! "Arm" b! "LimbNode" [move 1 0 0],
       deformer 90 b! "Skin" [],
       deformer 91 b! "Cluster" [.leaf b! "Indexes" [.arr .i32 [0, 2]], .leaf b! "Weights" [.arr .f32 [1, 2]],
        .leaf b! "TransformLink" [.arr .f32 [1, 0, 0, 0, 0, 1, 0, 0, 0, 0, 1, 0, 7, 8, 9, 1]]],
       deformer 92 b! "BlendShape" [], deformer 93 b! "BlendShapeChannel" [],
       .mk b! "Geometry" [.num .i64 94, .str b! "Smile", .str b! "Shape"]
        [.leaf b! "Indexes" [.arr .i32 [2]], .leaf b! "Vertices" [.arr .f32 [0, 5, 0]]]],
    .mk b! "Connections" []
      [link 70 0, link 71 70, link 80 0, link 81 80, link 90 71, link 91 90, link 81 91, link 92 71, link 93 92, link 94 93]]

def boundFileScene : Option (FScene ℚ) := modelFileEnv.sceneOf (build boundFile)

def boundFileConverted : Option (FResult ℚ) :=
  boundFileScene.bind fun sc => fbxConvert (119 / 2) sc FOptions.default 9 0 [] []

/-- The hypotheses of `bound_of_file` hold of the sample and the conversion ends: the objects, the bones with
their parents, positions and weights, and the shape. -/
example : versionOf boundFile ≠ 6100 ∧ DistinctIDs boundFile ∧ FileTree boundFile ∧ boundFileScene.isSome = true ∧
    (FOptions.default : FOptions ℚ).targetModelName = [] ∧ (FOptions.default : FOptions ℚ).objectDepth ≤ 0 ∧
    boundFileConverted.map (fun r => r.objects.map fun o => o.vertexes) =
      some [[⟨10, 0, 0⟩, ⟨13, 0, 0⟩, ⟨13, 3, 1⟩], [⟨10, 0, 0⟩, ⟨13, 0, 0⟩, ⟨13, 8, 1⟩]] ∧
    boundFileConverted.map (fun r => (r.setBones.getD []).map fun b => (b.id, b.parent, b.pos)) =
      some [(1, 0, ⟨0, 6, 0⟩), (2, 1, ⟨7, 8, 9⟩)] ∧
    boundFileConverted.map (fun r => (r.setBones.getD []).map fun b => b.weights.map fun w => w.vertexes.map fun v =>
      (v.vertexID, v.weight)) = some [[], [[(1, 1), (3, 2)]]] := by
  refine ⟨by decide +kernel, by unfold DistinctIDs; decide +kernel, by unfold FileTree; decide +kernel,
    by decide +kernel, by decide +kernel, by decide +kernel, by decide +kernel, by decide +kernel, by decide +kernel⟩

end Verif.Conv
