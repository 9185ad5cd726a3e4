import Verif.Geom.TriangulateProps
import Verif.Geom.MatProps
import Verif.Geom.EulerProps
import Verif.Geom.DecomposeProps
import Verif.Mmd.PmxProps
import Verif.Mmd.PmdProps
import Verif.Mmd.VmdProps
import Verif.Mqo.NamesProps
import Verif.Mqo.ObjectProps
import Verif.Mqo.MorphProps
import Verif.Mqo.MorphOption
import Verif.Mqo.MorphOptionProps
import Verif.Mqo.RotationProps
import Verif.Mqo.TransformProps
import Verif.Mqo.Pose
import Verif.Mqo.TextProps
import Verif.Mqo.UidProps
import Verif.Text.ScannerProps
import Verif.Fbx.GeometryProps
import Verif.Fbx.DocumentProps
import Verif.Fbx.ModelProps
import Verif.Fbx.BinaryTotal
import Verif.Fbx.BinaryProps
import Verif.Fbx.CoordProps
import Verif.Fbx.TextProps
import Verif.Conv.MmdGroupsProps
import Verif.Conv.MmdFacesProps
import Verif.Conv.MqoToMmdProps
import Verif.Conv.BonesProps
import Verif.Conv.GltfSkinProps
import Verif.Conv.GltfNodesProps
import Verif.Conv.GltfMeshProps
import Verif.Conv.GltfNormalProps
import Verif.Gltf.ImportProps
import Verif.Gltf.AnimProps
import Verif.Gltf.JointsProps
import Verif.Gltf.WidenProps
import Verif.Gltf.TransformProps
import Verif.Vrm.BonesProps
import Verif.Vrm.SpringProps
import Verif.Vrm.MorphProps
import Verif.Vrm.Export
import Verif.Vrm.ExportProps
import Verif.Vrm.ExportPartsProps
import Verif.Vrm.Presets
import Verif.Vrm.PresetsProps
import Verif.Vrm.PmxSkeletonProps
import Verif.Mqo.BoneRef
import Verif.Mqo.BoneRefProps
import Verif.Unity.YamlProps
import Verif.Unity.BuiltinProps
import Verif.Unity.PackageProps
import Verif.Unity.Assets
import Verif.Unity.AssetsProps
import Verif.Unity.Scene
import Verif.Unity.SceneLemmas
import Verif.Unity.SceneStep
import Verif.Unity.SceneLoad
import Verif.Unity.SceneValues
import Verif.Unity.SceneProps
import Verif.Cmd.MainProps
import Verif.Conv.FbxToMqo
import Verif.Conv.FbxMeshProps
import Verif.Conv.FbxBoneLemmas
import Verif.Conv.FbxTreeLemmas
import Verif.Conv.FbxVisitLemmas
import Verif.Conv.FbxConvProps
import Verif.Conv.FbxConvFindings
import Verif.Conv.FbxUnityProps
import Verif.Conv.UnityToMqo
import Verif.Conv.UnityLemmas
import Verif.Conv.UnityStep
import Verif.Conv.UnityRun
import Verif.Conv.UnitySample
import Verif.Conv.UnityProps
import Verif.Conv.UnityFaces
import Verif.Conv.UnityMeshProps
import Verif.Conv.UnityBodyProps
import Verif.Conv.GltfShared
import Verif.Conv.GltfSharedLemmas
import Verif.Conv.GltfSharedProps
import Verif.Gltf.BoneAnim
import Verif.Gltf.BoneAnimLemmas
import Verif.Gltf.BoneAnimProps
import Verif.Gltf.Material
import Verif.Gltf.MaterialProps
import Verif.Cmd.Materials
import Verif.Cmd.MaterialsProps
import Verif.Cmd.Paths
import Verif.Cmd.PathsProps
import Verif.Mqo.Tpose
import Verif.Mqo.TposeProps
import Verif.Mqo.DocTransform
import Verif.Mqo.DocTransformProps
import Verif.Gltf.Texture
import Verif.Gltf.TextureLemmas
import Verif.Gltf.TextureProps
import Verif.Conv.Physics
import Verif.Conv.PhysicsProps
import Verif.Conv.Materials
import Verif.Conv.MaterialsProps
import Verif.Mqo.ScaleProps
import Verif.Mqo.Mqx
import Verif.Mqo.MqxProps
import Verif.Gltf.ImportDoc
import Verif.Gltf.ImportDocProps
import Verif.Cmd.Dispatch
import Verif.Cmd.DispatchProps
import Verif.Mqo.CodePage
import Verif.Mqo.CodePageProps
import Verif.Gltf.Extensions
import Verif.Gltf.ExtensionsProps
import Verif.Conv.UnityBoneProps
import Verif.Conv.FbxWeightProps
import Verif.Fbx.Build
import Verif.Fbx.BuildLemmas
import Verif.Fbx.BuildProps
import Verif.Fbx.EditProps
import Verif.Fbx.EditFindings
import Verif.Fbx.EditParents
import Verif.Unity.PlaceholderProps
import Verif.Conv.FbxLink
import Verif.Conv.FbxLinkLemmas
import Verif.Conv.FbxLinkProps
import Verif.Conv.FbxLinkFindings
import Verif.Conv.FbxSavedLemmas
import Verif.Conv.FbxSavedProps
import Verif.Conv.FbxSavedFindings
import Verif.Conv.FbxBindProps
import Verif.Conv.FbxBindFindings
import Verif.Mqo.Source
import Verif.Mqo.SourceLemmas
import Verif.Mqo.SourceRound
import Verif.Mqo.SourceEx
import Verif.Mqo.SourceDoc
import Verif.Mqo.SourceProps
import Verif.Conv.GltfMorph
import Verif.Conv.GltfMorphProps
import Verif.Gltf.Motion
import Verif.Gltf.MotionProps
import Verif.Unity.SceneNested
import Verif.Conv.UnityLink
import Verif.Conv.UnityTree
import Verif.Conv.UnityTreeParts
import Verif.Conv.UnityFile
import Verif.Conv.UnityFileLemmas
import Verif.Conv.UnityFileProps
import Verif.Unity.BuiltinTextureProps
