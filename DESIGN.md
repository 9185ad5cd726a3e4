# Formal model of binzume/modelconv

Lean 4.33.0 project in `lean/`. `properties.jsonl` lists the properties, `MANIFEST.json` says
which theorem settles which property, `seeded/LOG.jsonl` records the wrong-program experiments.

## Trusted base

* Lean's kernel and the three standard axioms `propext`, `Classical.choice`, `Quot.sound`.
  No axiom is added, nothing uses `sorry`, `admit`, `native_decide` or `bv_decide`.
* The reading of the Go source: the definitions in `lean/Verif/**` are hand translations of the
  cited lines. Nothing connects them to the Go compiler.
* Mathlib (single modules) is used for rings, fields, reals, trigonometry, list permutations.

## Modelling conventions

* Each area has a model file (`Verif/<Area>/Model.lean` or similar; every definition cites file and lines in
  /repo), lemma files, and a `Props.lean` with the property theorems and, next to each, an `example` that a
  concrete, non-trivial case meets the hypotheses.
* **Floats.** Three views, chosen per property:
  1. *bit patterns* (`BitVec 32`/bytes) for serialisation: exact;
  2. *oracles*: every float comparison is an arbitrary Boolean function, so the theorem holds for
     whatever IEEE arithmetic answers, NaN included (triangulation structure, weights selection);
  3. *exact arithmetic* (commutative ring, field, or `Real`) for algebraic identities. Rounding is
     not modelled there: these theorems say that the formulas are right, not that results are exact.
* **Failures.** A Go panic or `log.Fatal` is `none`/`Except.error`, never a default value. A Go error
  that the code swallows is modelled as swallowed (reads past the end yield zeros, as in the code).
* **Maps.** Go maps are association lists or functions with explicit "missing"; where the code
  iterates over a map the order is a parameter of the theorem.
* **Pointers.** Objects are values; where aliasing matters (identity maps, shared caches), ids are
  explicit.
* When a property is false of the code, the negation is proved with a concrete witness (`*_false`
  theorems), and the part that does hold has the suffix `_partial`.

## Plan per property

| Id | What is modelled | How it is proved |
|---|---|---|
| C01 | `Triangulate` with the ear tests as arbitrary oracles; fallback fan; fuel-free outer loop | loop invariant: remaining list is a duplicate-free, increasing sublist; boundary chain of emitted triangles + boundary of the rest is constant |
| C02 | same, with points in a field | the area is a linear functional of the boundary chain |
| C03 | `Matrix4` as 16 fields, `Mul`, `ApplyTo`, `Transposed` over a commutative ring | `ring` per entry, link with Mathlib matrices as independent specification |
| C04 | `Det`, `Inverse` over a field | equal to Mathlib's `det`, both products equal the identity by `field_simp; ring` |
| C05 | Hamilton product, `Inverse`, `ApplyTo`, rotation matrix | polynomial identities modulo the unit-norm equation |
| C06 | `ToQuaternion` over the reals for the four orders | trigonometric identities |
| C07 | `NewEulerFromMatrix4` over the reals with `arcsin` and `atan2` as `Complex.arg` | inverse trigonometric identities per order |
| C08 | `NewTRSMatrix4`, `Decompose` over the reals, four branches | norm of columns, algebra per branch |
| C09 | `Normalize` over the reals | direct |
| C10 | little-endian byte codecs, `readVInt`, `readVUInt`, `writeVInt` | `omega`/`BitVec` arithmetic for every size |
| C11 | `readText`, `writeText` on byte lists (UTF-8 bytes uninterpreted), UTF-16 mode | list lemmas |
| C12 | the complete PMX writer and parser at byte level | compositional round-trip lemmas, induction over lists |
| C13 | `writeJoint`, `readJoint` | negation for the default header, partial for equal sizes |
| C14 | `writeVertex`, `readVertex` | negation for 5 weights, partial for 0..4 |
| C15 | `readMorph` (PMD), `writeMorph`, `readMorph` (PMX) | negation |
| C16 | grouping loop and an arbitrary sorting function | permutation and sortedness |
| C17 | reads past the end | negation |
| C18 | `FixNames` with arbitrary string concatenation of a counter | freshness invariant; termination by pigeonhole |
| C19 | `FixObjectID` | negation; partial when explicit ids are distinct and above the list length |
| C20 | `Face.Flip` | in-place swap loop equals reversal |
| C21 | `GetWorldTransforms` in an arbitrary monoid of transforms | negation; partial for flat documents |
| C22 | `SetRotation`, `GetRotation` | negation with a concrete rotation over the reals; partial for single-axis rotations |
| C23 | `SetVertexWeight` | induction over call histories |
| C24 | `PreSerialize` | negation; partial: the bones part is idempotent |
| C25 | the written text and `text/scanner` with the parser at the level of characters | round trip by induction over the lists; invariants of the scanner |
| C26 | `readInt` on `-` | negation: an invariant of the parser over all texts; the part for faces with a material |
| C27 | `MorphTargetList.Apply` over a ring | pointwise algebra |
| C28 | `ApplyMaterialMorph` | negation |
| C29 | index encode/decode with `int32` complement | induction over faces |
| C30 | `newID`, `AddObject` | invariant over call histories |
| C31 | `GetProperty`, `SetProperty` with the lazily filled cache | negation for duplicate names; partial for duplicate-free lists |
| C32 | binary node parser with absolute positions against a reference encoder | structural induction over trees |
| C33 | `SkipTo` | negation for non-seekable; partial for seekable |
| C34 | `setLayerElementNode` | negation |
| C35 | `GetWorldMatrix` in an arbitrary monoid | induction on the parent chain |
| C36 | `Convert`, `genMorphGroup`, `checkMorph` of mmd2mqo.go | the groups partition the materials (connected components), every face lands in one object; induction over the loops |
| C37 | both `convertVec3`, CLI scaling | algebra over any field |
| C38 | `Convert` of mqo2mmd.go | loop invariants relate the face list to the fans of the source faces |
| C39 | `convertBody` in both directions | negation for all bodies; partial for the other fields |
| C40 | `getWeights` | the loop over bones is projected to each vertex; slot invariants; negation by a witness with six influences |
| C41 | `ConvertObject` up to the writing of accessors | loop invariant (arrays, stems, assigned UVs) and a growth relation under which corners persist |
| C42 | `Convert`: materialMap and the material loop | both passes are related to one filtered list |
| C43 | `addBoneNodes` | invariant over the list of bones |
| C44 | `Convert`: nodePath | partial for depth sequences without jumps; negations by witnesses |
| C45 | `convertMesh` of gltf2mqo.go | faces per primitive; negation for every pair of primitives with own vertices |
| C46 | `addMorphChannels` | slots k*n+i are disjoint; loop invariant |
| C47 | `FixJointComponentType` on accessors, views and buffers | invariant: widened views, untouched views, buffers only grow |
| C48 | `ApplyTransform` on decoded accessors | for any iteration order of the map; universal negation for nodes, morphs, bind matrices |
| C49 | `ResetJointMatrix`, node part | one step keeps world positions (induction on the path); passes |
| C50 | `CheckRequiredBones`, `ValidateBones` | membership specification for all bone lists |
| C51 | humanoid bone assignment of `ApplyVRMConfig` | fold invariants: one entry per bone, entries name existing nodes |
| C52 | spring bone groups | specification by matching and not below a match |
| C53 | export of all morphs | fold invariant over the list of targets |
| C54 | merging of presets | key by key; crash as `none` |
| C55 | `ParseYamlDocuments` | rounds of the loop on rendered streams; induction over lines and documents |
| C56 | mesh generators with integer indices | index bounds by row |
| C57 | paths of `extractPackage` | stack invariant of path cleaning; universal negation |
| C58 | the `-hide` loop | invariant over rounds; ancestors by parent relation equal depth runs |
| C59 | scale vector and `ApplyTransform` | matrix algebra over a field |
| C60 | PMX parser results satisfy the writer preconditions (`Loaded`) | postcondition calculus `Post` over the parser, then the C12 round trip |
| C61 | the PMD parser at byte level | encoder specification, `Reads` lemmas per section |
| C62 | `Parse` dispatch with a look-ahead reader | equality with the direct parsers |
| C63 | the VMD parser at byte level | encoder specification, `Reads` lemmas |
| C64 | the error state of the VMD parser | negation; partial by induction over the sample lists |
| C65 | `FixNames` | negation by a concrete document; partial: the first of equal names keeps it if no generated name meets it |
| C66 | `SetVertexWeight` on bones with an empty look-up map | negation for all such bones |
| C67 | `Object.ApplyTransform` | algebra from C04 |
| C68 | `Object.Triangulate` | lifting C01 to faces |
| C69 | `GetSmoothNormals`, `FixhNormals` | induction over faces, C09 for the length |
| C70 | `Clone` | exact condition for equality; partial |
| C71 | `GetVertexIndexByID` | case analysis; negation for negative ids |
| C72 | `BoneTransform` (bones and vertices; morphs and physics left out) | soundness and completeness of the subtree by induction; algebra |
| C73 | `AddConnection`, loading of connections | negation for all models; partial for documents read from a file |
| C74 | `GetMatrix`, `UpdateMatrix`, setters | negation for all cached models; partial when nothing is cached |
| C75 | `CoordMatrix` | case analysis over axes, algebra over any commutative ring |
| C76 | `Parse`, `readNode`, `SkipTo` | progress measure: every call of `readNode` moves the read offset or sets an error |
| C77 | `Parse` | negation for all files cut behind a type letter; partial: cuts inside a number |
| C78 | mmd2mqo.go `Convert` | partial: vertices used by a face; negation by a witness |
| C79 | mqo2mmd.go `Convert` | partial: X and Y; negation: Z is always 0 |
| C80 | `setWeights` | list of influences, first four |
| C81 | `Convert` | negation for all normals with a Z component; X and Y for all |
| C82 | `convertBones`, `convertBone` | composition of both directions over any field |
| C83 | weight loops of mmd2mqo.go | fold invariant; negation for morph base objects |
| C84 | `convertBody` and scaling | negation for all bodies; X and Y for all |
| C85 | `addSkin` matrices | translations along the chain of parents |
| C86 | `ConvertObject` morph targets | from the invariant of C41 |
| C87 | exporter of C41 composed with `convertMesh` | from the specification of both sides |
| C88 | `convertBone` | mutual induction over fuel; totality by a rank |
| C89 | `addMorphChannels` | witness |
| C90 | `ResetJointMatrix` | one pass removes all rotations if parents come first; negation for a chain of twelve nodes listed the other way |
| C91 | `ResetJointMatrix` | universal negation |
| C92 | `ApplyTransform` bounds | fold invariants over an ordered field |
| C93 | first person of `ApplyVRMConfig` | case analysis |
| C94 | `VRM()` on the extension map | state equations |
| C95 | chain detection from physics | walk to the root of a chain |
| C96 | morph mappings | crash as `none` |
| C97 | mesh generators | antisymmetric edge sums telescope over rings |
| C98 | mesh generators over ℝ | sin² + cos² = 1 |
| C99 | output path of `main` | suffix of the path |
| C100 | `-chparent` | induction over the settings |
| C101 | the parser with a number of steps as bound | the bound given by the length of the text is never reached: every loop consumes a character |
| C102 | writer and parser, numbers over an abstract printer with stated laws | round trip by induction for each block |
| C103 | same | from C102: the normal form is the document |
| C104 | same | negation for the lock: an invariant of the parser; the other flags from C102 |
| C105 | tokenizer with its put-back buffer, node and attribute loops with a number of steps as bound | the bound given by the length of the text is never reached |
| C106 | writer (`Dump`) and reader at the level of bytes; strconv and fmt as parameters | induction over the tree: the reader goes over each written piece |
| C107 | accessors on saved values; the facts about strconv used are the fields of `TextLaws` | per type; arrays by induction |
| C108 | same | negation for names and escapes for all texts; the part for plain texts |
| C109 | same | negation: a number token with an exponent is refused, at any place; the part is C106 |
| C110 | same | negations; the part for arrays with elements is C107 |
| C111 | recognition of the file and the put-back buffer | negation by a file; the part for lines of at least 21 bytes |
| C112 | writer and parser at the level of characters (C102), tables of ids | the written ids are distinct; negation for a clash |
| C113 | `ConvertObject` up to the vertex arrays | invariant over faces and corners; negation for an edge |
| C114 | `convertGeometry` over arrays of any length | induction over polygons with the running corner number; negations for ignored normal indexes and other UV mappings |
| C115 | `convertShape` and the morph lists | loop with last entry per vertex |
| C116 | `convertDeformer`: path upwards, bones, ids | invariant over bones, table of ids and log of deformers; totality with heights |
| C117 | weights in `convertDeformer` with `SetVertexWeight` | calls of the log, grouped by object; distinct ids |
| C118 | `convertModel` as a run over visited models | visits as a list; decomposition at a parent |
| C119 | transforms of visited models | induction over the depth |
| C120 | `TrimPrefix`, `TrimSuffix` | universal: objects are right, bones of binary files keep `::Model` |
| C121 | branch of `convert` for `TargetModelName` | universal: right objects, never any bones |
| C122 | `fbxConvert` followed by `getWeights` | negation by a skinned box; weights up to the factor by composing C117 and C40 |
| C123 | Gltf/BoneAnim: `addBoneChannels` with accessors, samplers and channels; maps are lists in visiting order | invariant over the loop (channels resolve to the expected entries, the stored keys accessor is right), membership statement, no duplicate paths |
| C124 | Gltf/BoneAnim: `trackRotation`, `offsetQuat`; cosine and sine are functions with cos² + sin² = 1 | turns keep dot and cross products, so they commute with quaternions; the mirror is an automorphism |
| C125 | Gltf/BoneAnim: `trackPosition`, with `mmdToMqoVec` and the scale matrix | ring identities |
| C126 | `trackPosition` against `addBoneNodes` | proved for bones without parent, negation for all bones with a parent away from the origin |
| C127 | `trackPosition` with a scale `k` | negation for every scale other than 80 and every offset; the default scale is C125 |
| C128 | Gltf/Material: `emissiveFactor` | case analysis over ordered fields |
| C129 | Gltf/Material: `tryAddTexture` with the list of textures, `exportMaterials`; `load` says which files can be read | invariant over the list of textures: no repetition, references stay valid as it grows |
| C130 | Gltf/Material: `extTable`, `extFields`, `extLoop`, `exportMaterial` | membership in both directions, names without repetition; the names follow the glTF specification |
| C131 | Gltf/Material: `setAlphaMode` | lookup after replacing one key; congruence of the export |
| C132 | `exportMaterial` after `setAlphaMode` and `importMaterial` | proved with the parameter present, negation for all imported materials and other shaders |
| C133 | Gltf/Material: `importMaterial` then `exportMaterial` | field by field; negations for the alpha mode and for materials without PBR block |
| C134 | as C133 | an equivalence that does not mention whether the source is unlit |
| C135 | Conv/FbxToMqo: `modelSetup`, `fbxConvert` | every visited model has the materials of `modelSetup`; combined with C114 |
| C136 | Conv/FbxToMqo: `overrideLoop` | induction over the polygons, counting different numbers |
| C137 | Conv/FbxToMqo: `modelSetup` with `rootTransform` | products of affine matrices |
| C138 | Conv/UnityToMqo: `unityConvert` | the recursion is a run over the list of paths in preorder; each step adds the object and its imports |
| C139 | Conv/UnityToMqo: `convertGameObject`, `finishObject` | the flag passed down is the conjunction along the path |
| C140 | Conv/UnityToMqo: `addMaterial`, `addFbx` | invariant: the map from GUIDs to places is injective and right; with C136 |
| C141 | Conv/UnityToMqo: `scaleSlices` | count how often each slice is scaled |
| C142 | Conv/UnityToMqo: `UTransform.matrix`, `addGeometry`, `fbxOptions` | mirrored matrices compose; with C137 |
| C143 | Conv/UnityToMqo: `addBody`, `unityShapes` | bodies of the run, one list per step |
| C144 | Conv/UnityToMqo: `addLight` | lights of the run |
| C145 | Conv/UnityToMqo: `unityTexture`, `saveTexture` | a prefix without underscore determines the split |
| C146 | Conv/UnityToMqo: `addFbx` | negation: the list of bones is replaced by each import; for one mesh with bones by an invariant over the steps |
| C147 | Unity/Scene: `loadScene`, `modifyAll`, `modifyComp` (mesh filters, colliders, lights, bodies) | invariant of the loop over the documents: an inductive predicate says what a scene shows, scenes of instances have disjoint ranges of numbers; a fold of modifications gives the last value |
| C148 | Unity/Scene: `finish`, `isRoot` | the list of objects as a function of the documents; links of elements are kept by every step |
| C149 | Unity/Scene: `getChildren`, `addInstance` | children after a fold of insertions; lookups depend only on links |
| C150 | Unity/Scene: `getParent` | a parent is looked up in the scene of the transform itself |
| C151 | Unity/Scene: `loadScene` | invariant: children of transforms of an instance are in instances; a variant as counterexample |
| C152 | Unity/Scene: `loadScene` | induction on the rank of prefabs; a prefab in itself as counterexample for every bound |
| C153 | Conv/GltfShared: `exportItems` | loop invariant: the cache holds the geometry of the first object with a key; matrices over a field |
| C154 | Conv/GltfShared: `nodeMatrix` | matrices over a field; the mesh is moved by the matrix of its node |
| C155 | Mqo/Tpose: `boneAdjustX`, `autoTpose` | a rotation about z by minus the angle of a vector makes it horizontal; invariant over the matching bones: those done stay horizontal, because a bone listed later never turns one listed before |
| C156 | Mqo/DocTransform: `Document.applyTransform` | real arithmetic; the decomposition of the scaled frames by C08 |
| C157 | Cmd/Materials: `alphaOverrides`, `unlit`, `hideMaterials` | rules act on each material alone; the exported material by C131 to C134 and C42 |
| C158 | Gltf/Texture: `boundsFaces`, `hasAlpha` | loop invariant: the rectangle of a material covers the UVs seen; floor arithmetic for texels |
| C159 | Gltf/Texture: `finalScale`, `scaledSize` | arithmetic over an ordered field with floor |
| C160 | Gltf/Texture: `textureData` | case analysis; image codecs are parameters (a file decodes or not, sizes that can be encoded) |
| C161 | Conv/Physics: `boneBodies`, `objectBody` | induction on the bodies from the end |
| C162 | Conv/Physics: `convertColliders`, `applyColliders` | induction on the nodes; with C161 and C84 from MMD to VRM |
| C163 | Conv/Materials: `mmdMaterial`, `mqoMaterials` | induction on the materials with the list of textures so far |
| C164 | Conv/Materials: `addMorphMaterials`; with `applyMaterialMorph` (C28) | names of morph materials are taken apart in one way only; then C28 |
| C165 | Conv/Materials: `fbxMaterial` on `runProps` | by C31; numbers of files as floats are a parameter |
| C166 | Cmd/Paths: `clean`, `relPath`, `embedImage`, `toSingleFile`, `bufferNames` | induction on the images; other directories: the opened path is shorter than the one meant |
| C167 | Cmd/Paths: `unityPaths`, `scanAssets`, `chooseScene`, `unityBaseDir` | first occurrence of `Assets/` (it cannot overlap itself), parts of joined paths |
| C168 | Mqo/MorphOption: `morphOption` on `MorphTargetList.apply` and `applyMaterialMorph` | C27 for one step; induction on the rules with the differences of targets and base as invariant |
| C169 | Unity/Assets: entries of the archive and a file system of directories and contents; `extract`, `scanPackage`, lookup, `loadMaterial` | induction on the entries with an invariant for the directories; last entry wins |
| C170 | Mqo/Mqx: the XML tree of the plugins with the field tags as attributes; which files are written and read, `.mqoz` as a list of entries | encode/decode round trip for every element, then for files as a function from paths; negations for what is lost |
| C171 | Gltf/ImportDoc on top of Gltf/Import: nodes, meshes and skins as lists, recursion over joints with fuel | Forall₂ between mesh nodes and objects; invariant over the grown list of bones; negations for placement, rotation, missing and nested skeletons |
| C172 | Cmd/Dispatch: written format and animations as a function of all paths, with the extension as from outputOf | case analysis over extensions as arbitrary strings; negations for capitals and ignored inputs |
| C173 | Cmd/Dispatch: lengthFactor as the product of the factors of reader, command and writer | field arithmetic for each pair of kinds; negation for glTF inputs |
| C174 | Mqo/CodePage: bytes, the regular expression as a search, UTF-8 by the library of Lean, the Shift_JIS decoder as a parameter | the search is characterised by a decomposition of the bytes; composed with the round trip of texts (C102) |
| C175 | Gltf/Extensions: names of extensions of all parts of a document, the list as a permutation of a set | invariant `Listed` for the export and every step to VRM; Forall₂ for materials and lights; negations |
| C176 | Fbx/Build: the documents as tables from ids to nodes, references and parents; two folds over the lists of the file | the folds are characterised by filters of the file (Fbx/BuildLemmas); composed with the round trip of texts for saved documents |
| C177 | Fbx/Build with the table of names of version 6100 | the positive statement for names as in binary files; universal negation for names as in text files |
| C178 | Fbx/Build: `edit` on the tree and the tables together | invariant `Kept` (tables = tables of the tree) for every sequence of edits, and that edits succeed |
| C179 | Conv/FbxLink: what each accessor of models, geometries and deformers returns for a loaded tree; the result is the document type that Conv/FbxToMqo reads | notions of models, connections and meshes stated on the nodes of the file alone (Conv/FbxLinkLemmas), composed with the theorems on loading (C176) and on conversion (C116) |
| C180 | as C179, with the properties of models and of the settings read from the tree | induction over the tree of the file; the product of matrices is a relation on nodes of the file |
| C181 | the models of the text writer and text parser (C108), of loading (C176) and of conversion (C179, C180) composed | each notion on nodes of the loaded file (ids, connections, properties, templates, meshes, axes) equals that of the document that was saved (Conv/FbxSavedLemmas, Conv/FbxSavedProps); then the theorem of C180 on the loaded file |
| C182 | a grammar of MQO texts with a meaning of its own (Mqo/Source), written without the parser; the parser of C101 | every attribute, entry and block of the grammar is shown to move the parser to the text behind it with the effect of its meaning (Mqo/SourceLemmas, SourceRound, SourceEx, SourceDoc; thumbnails by following the scanner over hexadecimal digits), then induction over the text |
| C183 | as C182 | what two parts of different names say can be exchanged (all pairs), so permutations have the same meaning; then C182 |
| C184 | as C182 | the part that holds is C182 with contents that are none of the seven words of the format; the negation is shown for every unknown block with the word Eof in it and every rest of the file |
| C185 | Conv/GltfMorph: `gltfMorphs`, `exportNode`, `exportShapes` with `targetObjects`, `materialUsed`, `materialMap` and the meshes of C41; no bones, lights and shared geometry | filters are described by what they keep; C41, C42 and C86 for every object; induction over the nodes |
| C186 | as C185 | negations: objects named only by lists that are replaced or whose base does not exist (all documents), missing targets (all documents), a material of lines (witness) |
| C187 | Gltf/Motion: `addAnimation`, `addMorphChannels`, `IsBoneMap`, `IsMorphMap` with the models of C16, C46, C63, C123 | C63 for the file, C16 for the maps, C123 and C46 for the channels; induction over the nodes |
| C188 | as C187 | negation for all files: the channels do not depend on the curves |
| C189 | as C187 | negation for all models: a mesh whose morph names all occur in later meshes has no channel |
| C190 | Conv/UnityLink: `linkScene` (what the converter sees of a loaded scene); Conv/UnityFile: `FileShows` (what a file describes) with the models of C138 and C147 | the loaded scene contains the described trees (induction over trees, with the invariant of C147 kept by later loads), the converter walks trees in preorder (C138, C139, C142); the order of unlisted instances under one game object is left open because the program keeps them in a map |
| C191 | Unity/Builtin as for C56 | the triple product of the first three corners, with the real trigonometric functions, is negative for each face; vertices are found through the rows of the list |
| C192 | Unity/Builtin as for C56 | the orientation of the corners in the picture is compared with that of the face seen from outside; proved for cubes, walls of cylinders, planes and quads; disproved for all faces of spheres, for capsules and for the caps of cylinders |
| C193 | as C179; what a file says about clusters, bones, weights and shapes is defined on its nodes and connections (Conv/FbxBindProps) | references by number are carried over to nodes of the file; then the run of the conversion (C113, C114, C115) gives bones, weights and shapes |
| C194 | choice and loading of the config and the branch for VRM files of saveGltfDocument (Vrm/Export) | cases of option, guess and preset; the error case by showing that saving is independent of the name |
| C195 | saving with the empty config (Vrm/Export) | unfolding to the written extension; the bones by C51 |
| C196 | saving with config and preset (Vrm/Export) | one theorem for what is written (save_merged); bones by C51 with the list of the config before that of the preset, materials by C54 and C175 |
| C197 | recursion over nodes with fuel, crashes as none (Vrm/Export) | totality of each step for ranked nodes; the two crashes as theorems |
| C198 | the export as a whole (Vrm/Export), matching of names as a relation | saved_parts decomposes the export; the invariant of C52 over the groups with their settings; starts of chains by C95 |
| C199 | the export as a whole (Vrm/Export) | membership in the list of colliders; bodies by C162 |
| C200 | the export as a whole (Vrm/Export) | fold over the mappings (C53, C96), names by a second induction |
| C201 | the tables of bones of the three files (Vrm/Presets), the export as a whole (Vrm/Export) | names of different bones are disjoint (checked on the tables); then C51 for all documents |
| C202 | the bones of Conv/MqoToMmd, the bone nodes of Conv/GltfNodes, the export of Vrm/Export | converted bones are numbered from 1 with existing parents, so the nodes are built and keep the names; then C201 |
| C203 | UpdateBoneRef (Mqo/BoneRef) | induction over the bones still to be linked; the children of a bone are the places of the bones with its number as parent |

## Findings

Properties that a user would expect and that the code does not have. Each has a `*_false` theorem (the
negation, for a concrete witness or for all inputs of a kind) and a `*_partial` theorem for what holds.

| Id | Finding |
|---|---|
| C13 | joints written by `WritePMX` use another index size than the reader for the default header |
| C14 | vertices with more than four weights are written unreadably |
| C15 | a vertex morph read from PMD does not survive writing as PMX |
| C17, C64 | truncated PMX and VMD files are read without an error, the rest as zeros |
| C19 | `FixObjectID` can give an object an id that another object has |
| C21 | `GetWorldTransforms` pops its stack the wrong way round: wrong for every hierarchy |
| C22 | `SetRotation` stores angles in ZXY order, `GetRotation` reads them in YXZ order |
| C24 | preparing the bone plugin twice lists every weighted object twice |
| C28 | `ApplyMaterialMorph` tests the wrong variable for nil and stops on a missing material |
| C65 | `FixNames` renames a unique name if a generated name meets it |
| C66 | `SetVertexWeight` on a loaded bone makes a second group for the same object |
| C70 | `Clone` drops normals and ids of faces |
| C71 | `GetVertexIndexByID` answers a negative index other than -1 for negative ids |
| C72 | `BoneTransform` leaves children behind that are listed before their parents |
| C29 | a mesh without faces reports a polygon vertex count of 1 |
| C31 | `SetProperty` and `GetProperty` disagree if a property name occurs twice; both stop on unusual nodes |
| C33 | `SkipTo` counts the skipped bytes twice on input that cannot be seeked |
| C34 | `SetLayerElementNormal` and its siblings do not store what they are given |
| C35 | a cycle of parents recurses without end |
| C73 | `AddConnection` does not set the parent of a model |
| C74 | `GetMatrix` keeps answering the first matrix after a setter was called |
| C75 | an axis number of 3 in the file becomes a translation, others out of range stop the program |
| C77 | a binary file cut behind a type letter is accepted, the missing value is 0 |
| C36 | a morph, face or material count out of range stops the conversion |
| C38 | faces with a material number out of range are dropped |
| C39 | the kind of a rigid body is inverted by MMD to MQO to MMD; a body without bone gets the first bone |
| C78 | a morph that names a vertex used by no face moves vertex 0 |
| C79 | Z offsets of morphs are lost from MQO to MMD |
| C81 | normals are not mirrored from MQO to MMD |
| C82 | a bone that inherits from bone -1 stops the conversion if a bone table is given |
| C83 | weights of a bone named twice are not multiplied by 100 in morph base objects |
| C84 | sizes of rigid bodies get a negative Z |
| C40 | with more than five influences the largest weight of a vertex can be dropped |
| C41 | an object with a missing normal among its normals stops the glTF export |
| C44 | the parent of an exported node is wrong if object depths skip a level |
| C45 | the second primitive of a glTF mesh refers to vertices of the first one |
| C47 | widening joints does not double the offset of accessors and breaks data interleaved with the joints; the new view may also be unaligned |
| C48 | scaling a glTF document leaves node translations, morph targets and inverse bind matrices unscaled (`scaleMat` is a clone of a new identity) |
| C89 | morph channels of one mesh share the key times of one of them; channels with another number of keys are dropped, and which one wins depends on map order |
| C90 | ResetJointMatrix stops after ten passes, so chains of twelve or more nodes listed children first keep rotations |
| C91 | ResetJointMatrix turns the mesh of a node without skin |
| C51 | When no mapping names a humanoid bone, any node of that name is taken, also one that carries a mesh. Nodes with the same name: the last one is taken. |
| C54 | A preset with `materialSettings` is merged into a nil map when the configuration has none: crash. |
| C55 | The last line of a YAML stream is lost when it has less than three characters (loop bound `len-3`). A tag `!h` whose handle is declared panics. Bodies of all but the last document end with `---` of the next header. |
| C57 | `extractPackage` joins the entry name without checking: `../x` is written outside the temporary directory, for every directory. |
| C93 | The first person bone is -1 if the mapping of the head is suppressed and no fallback applies. |
| C95 | A chain that begins at a node without parent is treated as a child of node 0. |
| C96 | A morph mapping whose target node has no mesh dereferences nil. Target names are asserted as `[]string`, so that names in documents loaded from files are never matched. |
| C99 | `-format mqo x.mqo` (the type of the input) overwrites the input. |
| C100 | `-chparent a:b` with an unknown `b` dereferences nil. |
| C26 | `M(-1)` is read as material 0: the scanner yields `-` as a token of its own. The remaining attributes of the face (UVs) and the corners of the next face can be lost. |
| C104 | `locking` is written and never read: locks are lost by saving and loading. |
| C108 | Saved as ASCII FBX, the name `name\0\1Model` is written as `Model::name` and kept like that on loading, while `Name()` otherwise gives `name::Model`: `FindChildModel` no longer finds it. Escapes of `%q` are not undone: every save doubles backslashes. |
| C109 | A number printed by `%v` with an exponent (smaller than 0.0001, or 1000000 and larger, such as `1e-05` and `1.5e+06`) is not accepted by the reader: the saved file cannot be loaded. |
| C110 | An empty array is lost on saving. Reading `*0 {` `a:` `}` takes the brace for the end of the enclosing node; at the top level a stray `}` ends the file silently. |
| C111 | A first line shorter than 21 bytes corrupts reading: a byte put back lands behind the bytes read to recognise the file. |
| C112 | The writer gives vertex i without an ID the ID i+1 even if another vertex has it: `VertexByUID = {2: 0}` on two vertices is read back as 2 → 1. |
| C113 | Export shares a vertex between corners with (nearly) the same UV without looking at the normal: hard edges become smooth with the normal of the first face. |
| C114 | UVs with a mapping other than ByPolygonVertex are dropped; `NormalsIndex` is ignored, so that indexed normals go to the wrong corners; a UV index out of range or a negative material index stops the program. |
| C116 | A deformer that names the scene itself stops the program. |
| C120 | Bones of binary FBX files are called `Hips::Model`: only the prefix `Model::` is removed, not the ending. |
| C121 | With `TargetModelName` (Unity prefabs) `convert` returns before `SetBones`: weights and bones of the model are lost. |
| C122 | FBX weights (0 to 1) are stored as MQO weights, which are percent: a weight of 1 is exported to glTF as 0.01. |
| C126 | `addBoneChannels` adds the absolute position of the bone, but nodes rest at the position relative to the parent: a moved bone with a parent jumps by the position of the parent (`rest_translation_false`). |
| C127 | The animation always uses 80 * 0.001; with another `-scale` bones move too far or not far enough (`translation_scale_false`). |
| C131 | `SetGltfAlphaMode` replaces any other shader by an empty glTF shader: `-alpha name:blend` sets metallic and roughness to 0 where the export without it has specular and 0.4 (`alpha_mode_only_false`). |
| C132 | The cutoff is exported from parameter `AlphaCutOff`, but the glTF import writes `AlphaCutoff` and `-alpha name:mask` writes none: the cutoff is 0 and nothing is hidden (`mask_cutoff_false`). |
| C133 | The glTF import stores the alpha mode with the type of the glTF library, the export reads an `int`: every material becomes opaque (`gltf_alpha_false`). Materials without PBR block become black and fully transparent (`gltf_default_false`). |
| C134 | The glTF import does not read extensions, so unlit materials become lit; lit ones with metallic 0 and roughness 1 become unlit (`gltf_unlit_partial`). |
| C139 | `unity_shapes_hidden_false`: the objects of blend shapes, hidden by the FBX converter, are made visible by the Unity converter (unity2mqo.go:169). |
| C141 | `unity_uv_caps_false`: the two caps of a cylinder share their texture coordinates (unity_builtin.go:156-157), so the tiling is applied to them twice. The offset of a texture is never applied. |
| C143 | `collider_place_false`: the centre of a collider is not mirrored like everything else, so it is on the wrong side in z. `box_size_false`: a box takes the scale in x for all three sides. `cube_collider_false`: a mesh collider with the cube has a fixed size whatever the scale of its object. A mesh collider with the sphere is likewise. |
| C146 | `bones_replaced_false`, `bones_kept_false`: `convert` sets the bones of the document to those of the file just converted; the bones of meshes imported before are lost with their weights. |
| C147 | `number_name_false`: an instance renamed to something YAML reads as a number (`2024`) gets an empty name (unity_scene.go:150-151). |
| C150 | `instance_parent_false`: `GetParent` of the root of an instance looks in the scene of the prefab (unity_components.go:110-114), so it never is the transform that has it as a child; `GetWorldMatrix` of anything in an instance leaves out the transforms above the instance. |
| C151 | `added_object_lost_false`: an object put under an object of an instance is never a child of it: children come from `m_Children` only, and the placeholder has none. `variant_lost_false`: an instance, with a parent, of a prefab variant is neither root nor child, because its root is looked up in the scene of the variant (unity_scene.go:107-110). |
| C152 | `cycle_never_loads_false`: a prefab that contains itself makes the program recurse until the stack overflows. |
| C153 | `reuse_place_false`: an object that reuses geometry is shown at another place unless the scale of the export is 1 or the first object is at the origin (mqo2gltf.go:818-829 scales the translation of the product with the inverse of a matrix that is not scaled). `reuse_loses_false`, `reuse_panics_false`: a reused mesh has the triangles of the first object by material number; with fewer materials triangles are lost, with more the program panics. `reuse_uv_false`: texture coordinates of the later object are ignored. |
| C154 | `light_mesh_false`: the node of an object with a light gets the matrix of the object although its vertices are already in place, so that its mesh is moved twice. |
| C155 | `autotpose_order_false`: if a bone is listed before its parent and both match, the bone is adjusted first and then turned away by its parent. Bones are never turned about the y axis: arms that point forward stay so. |
| C156 | `joints_false`: joints (`Constraints`) are not transformed at all. `box_rotated_false`: with -rot180 rotated shapes keep their rotation. `nested_frames_false`: the frame of an object below another is multiplied by the matrix although its parent was already, so that with factor k it is k² as far from its parent. |
| C157 | `unlit_alpha_false`: -unlit drops the parameters of the glTF shader, also the alpha mode just set by -alpha: masks come out opaque (main.go:377). |
| C158 | `palette_false`: images with a palette or 16 bits per channel are never found transparent. `whole_texture_false`: UVs on the border of the texture (a face that shows all of it, from 0 to 1) are taken modulo 1, so that the rectangle is empty and nothing is found. `shared_vertices_false`: for a vertex that another material used before, the rectangle is not extended. `seam_false`: a face across the border of the texture gets the rectangle on the other side. |
| C159 | `height_false`: the limit is for the width only. `copied_false`: PNG and JPEG files are copied as they are by default, whatever the limit. |
| C160 | `absolute_false`: textures with absolute names are searched below the directory of the source. `flat_false`: a very flat image is shrunk to height 0, cannot be encoded and is left out. |
| C161 | `loose_body_false`: bodies without a bone and object (in MMD, bone -1) are dropped. `shape_turn_false`: the rotation of shapes is not exported. `groups_false`: bodies that share a bone all get the collision groups of the first. |
| C162 | `box_false`: boxes give no collider. `same_name_false`: the group of a node goes to the last node of the same name. `springs_pass_false`: the group of spring bones made from physics names no collider group, so the colliders have no effect on it. A capsule becomes a ball of its radius. |
| C163 | `mmd_texture_false`: a texture number outside of the list stops the program. `double_sided_false`: MQO to MMD never sets the flag for double sided materials, although MMD to MQO reads it; edge, ambient and specular color are lost as well. Every material adds its own entry to the list of textures. `edge_flag_false`: the flag that switches the edge of a PMX material off is not looked at, only its size. |
| C164 | `all_materials_false`: an offset for all materials (target -1 in PMX) has no effect. Edge, texture and toon factors of a morph are not converted. |
| C165 | `fbx_name_false`: materials of binary files get names that end in `::Material` (for models the converter removes this). `fbx_texture_kind_false`: what a texture is connected to is ignored, so a normal map that is connected first becomes the color texture. |
| C166 | `other_directory_false`, `absolute_dir_false`: the path of an image is made relative to the directory of the source instead of being joined to it, so images are only embedded if the source is in the directory the program runs in; `wrong_file_false`: or another file is embedded. `image_type_false`: every file that is not `.png` is said to be JPEG. `buffer_clash_false`: a new buffer name can be that of an existing buffer, whose file is then overwritten. |
| C167 | `other_assets_false`: in a path like `MyAssets/a.unity` the scene is not found. `upper_package_false`: a package with an upper case extension is opened as a directory. |
| C168 | `material_order_false`: colors are mixed one rule after the other, so the order of rules matters for materials and a rule with weight 1 removes those before it. `morph_twice_false`: a morph given twice moves only the rest of the way the second time. The weight `R` that the help text offers is an error. A name that is neither a target nor a morph material is silently ignored. |
| C169 | `no_directory_false`: a file whose directory has no entry of its own stops the extraction with an error (`os.Create` without `MkdirAll`), although such archives are valid and written by other tools. `second_line_false`: the path is the whole content of `pathname`; older versions of Unity write a second line (`00`), and then the asset is found under no usable path (nor recognised as a scene). `same_path_false`: two assets with the same path: reading the first one by GUID gives the content of the other. The temporary directory stays if the extraction fails. |
| C170 | `physics_back_false`: rigid bodies and joints are written to the `.mqx` file but never read. `loaded_weight_false`: a weight added to a loaded bone opens a second group for the same object, because the index of groups is not rebuilt. `resaved_objects_false`: saving a loaded document lists its weighted objects once more (C24). `missing_mqx_false`: a `.mqx` file that is missing or broken is silently ignored and the document comes without bones and morphs. `save_load_mqoz_partial`: names are not made unique for `.mqoz`. A path ending in `.mqx` writes both files to the same place. |
| C171 | `object_placement_false`: the translation and rotation of nodes are not applied to objects, so two nodes with the same mesh coincide. `bone_rotation_false`: rotations of joints do not turn the positions of their children. `no_skeleton_false`: skins without the optional `skeleton` give no bones at all. `nested_skeleton_false`: a skeleton root below another root is imported twice. The primitive mode is not looked at either (not modelled). |
| C172 | `upper_case_false`: an output `x.MQOZ` gets plain text instead of an archive, since the writer compares the ending in lower case only. `format_option_false`: `-format GLB` is refused although a file name `x.GLB` works. `animations_lost_false`: animations are ignored without a message if the input is glTF or the output is not. `more_inputs_false`: further models are ignored without a message. |
| C173 | `gltf_size_false`: the reader for glTF does not undo the factor 1/1000 of the writer, so glTF to MQO or PMX makes models a thousand times smaller; GLB to MQO to GLB gives a model of 1/1000 size. FBX to FBX ignores `-scale` and all other options. |
| C174 | `short_read_false`: if the first call of Read returns fewer than 54 bytes, a written document is decoded as Shift_JIS. `late_code_page_false`: a declaration behind the first 128 bytes, e.g. after a long comment, is not seen. `utf8_backslash_false`: backslashes stay in UTF-8 documents although they become slashes in others. |
| C175 | `physics_listed_false`: a VRM file exported with physics lists BLENDER_physics although it is removed everywhere. `properties_false`: old material properties stay if there are as many as materials, whatever their names. Forcing a material to be unlit drops all its other extensions (`settings_exact`), and an alpha of 0 cannot be set. |
| C177 | `text6100_false`: text files of version 6100 call the scene `Model::Scene`, but only the name of binary files is known, so the scene of such a document has no children and nothing is converted. `saved6100_false`, `saved6100_objects_false`: the same happens to a document that was loaded from a binary file and saved; it is converted to no objects. `own_parent_false`: a model added to the scene of a 6100 document is its own parent after saving and loading, so walking its parents never ends. |
| C178 | `connected_parent_false`: connecting two models never sets the parent in memory, so the world matrix of an added model leaves out the models above it until the document is loaded again. `materials_false`: the list of materials of the document is not extended by AddObject. `dangling_false`: an added object can get the id that a connection of an unknown object names; then it is connected after loading. `own_parent_false`: see C177. |
| C184 | `unknown_block_false`: `Parse` does not skip unknown blocks of the file but goes on with the words in them. The word `Eof` in such a block ends the file, and `Object`, `Material`, `Scene` in it are read as if they were outside. |
| C186 | `morph_lost_false`: only the last morph list of a base counts, but the targets of all lists are left out of the nodes, so the targets of the other lists, and those of lists without a base object, appear nowhere in the glTF file. `morph_missing_false`: a target that no object is called makes the export panic. `unused_material_false`: materials that only faces with less than three corners have are exported although no primitive uses them. |
| C188 | `curves_false`: the 64 bytes of curves that each bone key of a VMD file has are read but not used; glTF animations are linear between the keys. |
| C189 | `shared_morph_false`: of the meshes with a morph target of one name only the last is animated; a mesh whose names all occur in later meshes gets no weights at all. |
| C192 | `sphere_mirrored_false`: every face of a sphere shows the picture mirrored (unity_builtin.go:111-126 count `j / sh` where cylinders count `1 - i / s`). `capsule_mirrored_false`: the caps of a capsule are mirrored and the wall is not. `cylinder_caps_false`: all corners of top and bottom of a cylinder have the second texture coordinate 1, so that the picture is squeezed to a line. |
| C194 | `plain_name_false`: a config file whose name has neither dot nor slash is never read. `config_error_false`: a config that cannot be read is only logged; the file is saved with an empty config and no error is reported. |
| C195 | `resave_false`: saving a VRM file as VRM without config empties title, author and license and drops every humanoid bone that is not required or whose node is not named like the bone. |
| C196 | `own_wildcard_false`: a setting of the preset for a named material is used before the setting of the config for all materials (`*`). `preset_missing_false`: when the preset cannot be loaded, an error is returned but a VRM file without bones is still written. |
| C197 | `preset_crash_false`: with `"preset": "mmd"` (or any preset with material settings) in a config without materialSettings the program crashes for every input. `node_crash_false`: an expression that names a node without mesh ends the program. |
| C203 | `UpdateBoneRef` (mqo/bone_plugin.go:100-110) takes parents and writes children by place in the list, not by id. If the ids are not 1, 2, ... in order, a bone can list its own parent as a child (`bone_refs_false`). |

## What is modelled, by source file

Written from the citations in the definitions. "Functions" counts the functions of the file with at least one cited line and
all functions; the lines that a definition leaves out are named in its comment. The functions in the last column have no
definition: constructors, getters and one-line wrappers, and the readers and writers of the libraries listed below.

| Source file | Functions | Lean modules | Not modelled |
|---|---|---|---|
| cmd/modelconv/main.go | 8 of 8 | Cmd/Dispatch, Cmd/Main, Cmd/Materials, Cmd/Paths, Mqo/DocTransform, Mqo/MorphOption, Mqo/Tpose, Vrm/Export |  |
| cmd/modelconv/utils.go | 2 of 3 | Cmd/Dispatch, Cmd/Paths | `loadAnimation` |
| converter/fbx2mqo.go | 9 of 10 | Conv/FbxToMqo, Conv/Materials | `FBXToMQOConverter.Convert` |
| converter/glbanim.go | 3 of 5 | Gltf/Anim, Gltf/BoneAnim, Gltf/Motion | `keysEquals`, `isDefaultRotations` |
| converter/gltf2mqo.go | 4 of 5 | Gltf/Import, Gltf/ImportDoc, Gltf/Material | `NewGLTFToMQOConverter` |
| converter/mmd2mqo.go | 9 of 10 | Conv/Graph, Conv/Materials, Conv/MmdGroups, Conv/MmdToMqo, Conv/MqoToMmd | `NewMMDToMQOConverter` |
| converter/mqo2gltf.go | 14 of 19 | Cmd/Dispatch, Conv/GltfMesh, Conv/GltfMorph, Conv/GltfNodes, Conv/GltfShared, Conv/GltfSkin, Conv/Physics, Gltf/Extensions, Gltf/Material, Gltf/Texture | `textureCache.get`, `textureCache.getImage`, `mqoToGltf.addMatrices`, `mqoToGltf.getNormal`, `mqoToGltf.tryAddTexture` |
| converter/mqo2mmd.go | 7 of 7 | Cmd/Dispatch, Conv/Materials, Conv/MqoToMmd |  |
| converter/unity2mqo.go | 7 of 7 | Cmd/Dispatch, Conv/UnityLink, Conv/UnityToMqo |  |
| converter/vrmconfig.go | 11 of 12 | Conv/Physics, Gltf/Extensions, Vrm/Config, Vrm/Export | `ToVRM` |
| fbx/binary_parser.go | 14 of 16 | Fbx/Binary, Fbx/Node, Fbx/Text | `positionReader.Read`, `binaryParser.readName` |
| fbx/fbx.go | 2 of 4 | Fbx/Text | `Load`, `Save` |
| fbx/fbx_document.go | 7 of 7 | Conv/FbxLink, Conv/FbxToMqo, Fbx/Build, Fbx/Document, Fbx/Geometry, Fbx/Model |  |
| fbx/fbx_geometry.go | 29 of 29 | Conv/FbxLink, Conv/FbxToMqo, Fbx/Geometry |  |
| fbx/fbx_material.go | 3 of 5 | Conv/Materials | `NewMaterial`, `Material.SetColor` |
| fbx/fbx_model.go | 13 of 14 | Conv/FbxLink, Conv/FbxToMqo, Fbx/Build, Fbx/Model | `NewModel` |
| fbx/fbx_node.go | 19 of 29 | Conv/FbxLink, Conv/Materials, Fbx/Geometry, Fbx/Node, Fbx/Text | `Node.RemoveChild`, `Node.GetInt`, `Node.GetInt64`, `Node.GetFloat32`, `Node.GetString`, `AttributeList.Get`, `AttributeList.ToInt`, `AttributeList.ToString`, `Attribute.Len`, `Attribute.ToInt` |
| fbx/fbx_object.go | 9 of 15 | Conv/FbxLink, Conv/Materials, Fbx/Build, Fbx/Document, Fbx/Geometry | `Obj.GetNode`, `Obj.NodeName`, `Obj.Kind`, `Obj.SetStringProperty`, `Obj.SetColorProperty`, `Obj.AddRef` |
| fbx/text_parser.go | 7 of 7 | Fbx/Text |  |
| geom/euler.go | 3 of 4 | Geom/Euler | `NewEuler` |
| geom/matrix4.go | 14 of 17 | Geom/Euler, Geom/Mat | `NewMatrix4FromSlice`, `Matrix4.Clone`, `Matrix4.ToArray` |
| geom/quaternion.go | 10 of 14 | Geom/Vec | `NewVector4`, `Vector4.HadamardProduct`, `NewQuaternion`, `NewQuaternionFromArray` |
| geom/utils.go | 3 of 5 | Geom/Triangulate, Gltf/Material | `Abs`, `Min` |
| geom/vector2.go | 5 of 9 | Geom/Vec | `NewVector2`, `Vector2.Scale`, `Vector2.Dot`, `Vector2.Cross` |
| geom/vector3.go | 9 of 13 | Geom/Mat, Geom/Vec | `NewVector3`, `NewVector3FromArray`, `NewVector3FromSlice`, `Vector3.ToArray` |
| gltfutil/gltf_joint.go | 2 of 4 | Gltf/Joints | `readMatrix`, `writeMatrix` |
| gltfutil/gltf_utils.go | 3 of 4 | Cmd/Paths, Gltf/Extensions, Gltf/Transform, Vrm/Export | `Load` |
| mmd/base_parser.go | 6 of 7 | Mmd/Bytes, Mmd/Vmd | `baseParser.read` |
| mmd/mmd.go | 1 of 3 | Mmd/Doc | `Load`, `Save` |
| mmd/pmd_parser.go | 7 of 8 | Mmd/Pmd | `NewPMDParser` |
| mmd/pmx_parser.go | 14 of 15 | Mmd/Pmd, Mmd/Pmx | `NewPMXParser` |
| mmd/pmx_writer.go | 17 of 20 | Mmd/Bytes, Mmd/Pmx | `baseWriter.write`, `baseWriter.writeVUInt`, `PMXWriter.writeUIndex` |
| mmd/vmd_parser.go | 4 of 5 | Gltf/Motion, Mmd/Pmd, Mmd/Vmd | `NewVMDParser` |
| mqo/bone_plugin.go | 8 of 13 | Mqo/BoneRef, Mqo/Core, Mqo/DocTransform, Mqo/Mqx, Mqo/Pose, Mqo/Tpose | `GetBonePlugin`, `BonePlugin.Bones`, `BonePlugin.SetBones`, `BonePlugin.AddBone`, `BonePlugin.PostDeserialize` |
| mqo/morph_plugin.go | 3 of 7 | Mqo/Core, Mqo/MorphOption | `MorphPlugin.Morphs`, `GetMorphPlugin`, `MorphPlugin.PreSerialize`, `MorphPlugin.PostDeserialize` |
| mqo/mqo.go | 20 of 23 | Cmd/Materials, Conv/MmdToMqo, Conv/UnityToMqo, Gltf/Material, Mqo/Core, Mqo/Doc, Mqo/DocTransform, Mqo/Parser | `NewDocument`, `Document.GetPlugins`, `MaterialEx2.StringParam` |
| mqo/mqo_parser.go | 20 of 20 | Mqo/CodePage, Mqo/Mqx, Mqo/Parser, Text/Scanner |  |
| mqo/mqo_writer.go | 3 of 5 | Cmd/Dispatch, Mqo/Mqx, Mqo/Writer | `NewWriter`, `SaveMQOZ` |
| mqo/mqx_parser.go | 1 of 1 | Mqo/Mqx |  |
| mqo/mqx_writer.go | 1 of 1 | Mqo/Mqx |  |
| mqo/physics_plugin.go | 1 of 6 | Conv/MqoToMmd, Mqo/DocTransform | `Vector3XmlAttr.Vec3`, `FindPhysicsPlugin`, `GetPhysicsPlugin`, `PhysicsPlugin.PreSerialize`, `PhysicsPlugin.PostDeserialize` |
| mqo/utils.go | 5 of 5 | Cmd/Main, Mqo/Core, Mqo/DocTransform |  |
| unity/unity.go | 7 of 10 | Conv/UnityLink, Conv/UnityToMqo, Unity/Scene | `NewScene`, `Scene.GetGameObject`, `GameObject.init` |
| unity/unity_assets.go | 11 of 19 | Cmd/Paths, Unity/Assets, Unity/Package | `MetaFile.GetRecycleNameByFileID`, `OpenProject`, `OpenAssets`, `assetsFs.GetSourcePath`, `assetsFs.Open`, `assetsFs.GetMetaFile`, `assetsFs.loadMetaFile`, `assetsFs.Close` |
| unity/unity_builtin.go | 8 of 8 | Conv/UnityToMqo, Unity/Builtin |  |
| unity/unity_components.go | 5 of 7 | Conv/UnityToMqo, Unity/Scene | `BaseComponent.init`, `Transform.GetWorldMatrix` |
| unity/unity_material.go | 4 of 5 | Conv/UnityToMqo, Unity/Assets | `Color.Array` |
| unity/unity_scene.go | 2 of 4 | Cmd/Paths, Unity/Scene | `DumpScene`, `GameObject.Dump` |
| unity/unity_yaml.go | 4 of 5 | Unity/Yaml | `YAMLDoc.Decode` |
| vrm/vrm.go | 2 of 5 | Vrm/Config, Vrm/Export | `VRM.Title`, `VRM.Author`, `NewMaterialProperty` |
| vrm/vrm_extension.go | 3 of 5 | Gltf/Extensions, Vrm/Config | `init`, `Unmarshal` |
| vrm/vrm_parser.go | 0 of 1 |  | `Parse` |
| vrm/vrm_writer.go | 0 of 2 |  | `createfs.Create`, `Write` |

## Facts about libraries that are assumed

They are parameters or structures of the theorems that use them, so that each theorem names what it needs; none is an axiom.

| Where | What is assumed |
|---|---|
| `NumLaws`, `TextLaws`, `XmlLaws` (Mqo, Fbx) | printing a number and reading it again gives the number (or the stated rounding), and printed numbers have the characters of numbers; facts about `strconv` and `fmt` |
| Text/Scanner | `text/scanner` is modelled from its documentation; NUL characters and byte order marks are left out |
| Mqo/CodePage | the Shift_JIS decoder of golang.org/x/text is a parameter; UTF-8 is decoded as in Lean's library |
| Mqo/Mqx | `encoding/xml` keeps elements and attributes; a missing attribute is a zero value |
| Fbx/Binary | nothing: `compress/zlib` is an arbitrary function (parameter `Zlib`) from bytes to bytes or an error |
| Conv/FbxLink (`FbxEnv`), Gltf/Motion (`MotionEnv`) | how bit patterns are numbers and bytes are characters are parameters; so is the rotation by Euler angles, with the formula for the reals in Geom/Euler |
| Conv/UnityToMqo (`UMath`) | square root, sine, cosine and Euler angles are parameters |
| Conv/UnityLink (`Numbering`) | pointers to game objects are numbered |
| Unity/Yaml, Unity/Scene | `gopkg.in/yaml.v2` decodes documents to their fields |
| Gltf/Material, Gltf/Extensions | material fields and alpha modes are those of the types of `qmuntal/gltf` |
| Gltf/Texture | images are pixels; size limits of codecs are left out |
| Cmd/Paths | `path/filepath` is modelled from its documentation, for paths with `/` |
| everywhere | the order in which Go visits a map is a parameter or left open (`Perm`) |

## Not modelled

Image decoding, scaling and encoding, file system access, zip/tar/gzip/zlib, JSON/XML/YAML libraries,
`qmuntal/gltf`'s encoder, Shift-JIS/code page conversion, logging, command line flag parsing.
