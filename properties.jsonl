{"id": "C01", "title": "Polygon triangulation covers the polygon exactly", "statement": "For every polygon with n >= 3 points (convex or not, degenerate, or with NaN coordinates) Triangulate returns exactly n-2 triangles, every index is in [0,n), the three indices of a triangle are distinct and appear in the polygon's cyclic order, and the oriented edges of the triangles cancel to exactly the polygon's boundary. For n < 3 it returns nothing. It always terminates and never indexes out of range.", "quantifier": "all polygons of any length and all outcomes of the floating point comparisons made on the way", "why_tests_cant": "tests try three small polygons; the ear-clipping loop shrinks a list while iterating backwards and has a fallback path that only degenerate input reaches", "anchors": ["geom/utils.go: Triangulate"]}
{"id": "C02", "title": "Triangulation preserves the polygon's area vector", "statement": "The sum of the area vectors (half cross products) of the triangles returned by Triangulate equals the area vector of the polygon, so a planar polygon keeps its signed area and its facing.", "quantifier": "all polygons over exact arithmetic", "why_tests_cant": "area preservation has to hold for every vertex list, including concave and self-touching ones", "anchors": ["geom/utils.go: Triangulate", "geom/vector3.go: Cross"]}
{"id": "C03", "title": "Matrix multiplication composes transforms", "statement": "Mul is associative with the identity as two-sided unit, transposing reverses products, and for affine matrices applying A.Mul(B) to a point gives the same point as applying B and then A.", "quantifier": "all 4x4 matrices and points over exact arithmetic", "why_tests_cant": "the 64 index products are written out by hand; a swapped index can survive tests on the identity matrix, which are the only tests in the repo", "anchors": ["geom/matrix4.go: Matrix4.Mul, Transposed, NewMatrix4", "geom/vector3.go: Matrix4.ApplyTo"]}
{"id": "C04", "title": "Matrix inverse really inverts", "statement": "If Det() is non-zero, Inverse() is a two-sided inverse; if Det() is zero the all-zero matrix is returned; Det is multiplicative.", "quantifier": "all 4x4 matrices over any field", "why_tests_cant": "the cofactor expansion has hundreds of hand-written index terms; the only test is the identity matrix", "anchors": ["geom/matrix4.go: Matrix4.Inverse, Det"]}
{"id": "C05", "title": "Quaternion rotation agrees with the rotation matrix", "statement": "For a unit quaternion q, q.ApplyTo(v) equals NewRotationMatrix4FromQuaternion(q).ApplyTo(v), the product of quaternions maps to the product of matrices, rotation preserves dot and cross products, and q.Mul(q.Inverse()) is the identity rotation.", "quantifier": "all unit quaternions and vectors over exact arithmetic", "why_tests_cant": "sign errors in one of the 16 products only show on generic rotations", "anchors": ["geom/quaternion.go", "geom/matrix4.go: NewRotationMatrix4FromQuaternion"]}
{"id": "C06", "title": "Euler angles compose axis rotations in the stated order", "statement": "For each of the rotation orders, Euler.ToQuaternion equals the product of the three single-axis rotations in that order, and the result has unit length.", "quantifier": "all angle triples and all orders", "why_tests_cant": "six orders times sign patterns; tests use one angle triple for four of the orders", "anchors": ["geom/euler.go: ToQuaternion, NewEuler"]}
{"id": "C07", "title": "Euler extraction inverts Euler composition", "statement": "Extracting Euler angles from a rotation and composing them again gives the same rotation, for every supported order; angles inside the principal range are recovered exactly.", "quantifier": "all unit quaternions (and all angle triples in the principal range) whose middle sine is below 1-1e-8 in absolute value or exactly 1 (the code switches formula inside that band, so inside it the result is only approximate)", "why_tests_cant": "tests compare one triple per order with an epsilon", "anchors": ["geom/euler.go: NewEulerFromMatrix4, NewEulerFromQuaternion"]}
{"id": "C08", "title": "TRS matrices decompose into their parts", "statement": "Composing translation, unit quaternion and positive scale with NewTRSMatrix4 and decomposing returns the same translation and scale and a quaternion denoting the same rotation.", "quantifier": "all translations, unit quaternions and positive scales", "why_tests_cant": "the quaternion extraction has four branches chosen by the trace and the diagonal; tests reach one", "anchors": ["geom/matrix4.go: NewTRSMatrix4, Decompose"]}
{"id": "C09", "title": "Normalize always returns a unit vector", "statement": "Normalize of any Vector2/3/4 has length 1, including the zero vector, and is a non-negative multiple of the input unless the input is zero.", "quantifier": "all vectors over exact arithmetic", "why_tests_cant": "the zero special case and scaling must hold for every vector", "anchors": ["geom/vector2.go: Vector2.Normalize", "geom/vector3.go: Vector3.Normalize", "geom/quaternion.go: Vector4.Normalize"]}
{"id": "C10", "title": "PMX variable-size indexes survive write and read", "statement": "Any index that fits the declared size (1, 2 or 4 bytes), including the -1 'none' value, is read back unchanged and exactly the declared number of bytes is consumed; unsigned vertex indexes likewise.", "quantifier": "all integers in range, all three sizes, any following bytes", "why_tests_cant": "sign extension and wrap-around errors appear only at particular boundaries of each size", "anchors": ["mmd/base_parser.go: readVInt, readVUInt", "mmd/pmx_writer.go: writeVInt"]}
{"id": "C11", "title": "PMX texts survive write and read", "statement": "A text written by the PMX writer is read back unchanged and the reader stops exactly at its end, for any UTF-8 text; UTF-16 text (mode 0) is decoded code unit by code unit.", "quantifier": "all strings of length below 2^31 and any following bytes", "why_tests_cant": "length prefix and encoding must agree for every string", "anchors": ["mmd/pmx_parser.go: readText", "mmd/pmx_writer.go: writeText"]}
{"id": "C12", "title": "PMX documents survive save and load", "statement": "Writing a well-formed document without joints as PMX and parsing the bytes gives back the same document (up to the fields the format library documents as unsupported), for any index sizes declared in the header.", "quantifier": "all well-formed documents: any number of vertices, faces, textures, materials, bones, morphs, bodies, any index sizes", "why_tests_cant": "a PMX file is one long byte stream without markers; one wrong width anywhere desynchronises everything behind it", "anchors": ["mmd/pmx_parser.go: Parse", "mmd/pmx_writer.go: WritePMX"]}
{"id": "C13", "title": "PMX joints survive save and load", "statement": "Joints written to a PMX file are read back unchanged, for any header index sizes, including the header produced by NewDocument.", "quantifier": "all documents with joints and all header index sizes", "why_tests_cant": "writer and reader pick the size from different header fields, which only differs for some headers", "anchors": ["mmd/pmx_writer.go: writeJoint", "mmd/pmx_parser.go: readJoint", "mmd/mmd.go: NewDocument"]}
{"id": "C14", "title": "PMX vertices with any number of bone weights stay readable", "statement": "Writing a vertex never desynchronises the stream: whatever the number of bone weights, the reader consumes exactly what the writer produced for that vertex.", "quantifier": "all vertices, any number of bones and weights", "why_tests_cant": "the weight type is derived from a count; only counts 1 to 4 come from normal files", "anchors": ["mmd/pmx_writer.go: writeVertex", "mmd/pmx_parser.go: readVertex"]}
{"id": "C15", "title": "Morphs loaded from PMD can be saved as PMX", "statement": "A document loaded from a PMD file and saved as PMX can be loaded again with the same morphs.", "quantifier": "all PMD documents with vertex morphs", "why_tests_cant": "the morph kind field is left unset by one parser and trusted by the other writer", "anchors": ["mmd/pmd_parser.go: readMorph", "mmd/pmx_writer.go: writeMorph", "mmd/pmx_parser.go: readMorph"]}
{"id": "C16", "title": "VMD channels partition and order the key frames", "statement": "GetBoneChannels and GetMorphChannels put every sample into exactly the channel of its target, lose and duplicate nothing, and each channel is ordered by frame.", "quantifier": "all sample lists, all sorting outcomes that order by frame", "why_tests_cant": "sample lists are arbitrary interleavings of targets and frames; the sort is not stable", "anchors": ["mmd/vmd_parser.go: GetBoneChannels, GetMorphChannels"]}
{"id": "C17", "title": "Truncated PMX files are reported", "statement": "If a PMX file is cut short, Parse returns an error.", "quantifier": "all proper prefixes of PMX files", "why_tests_cant": "there are as many truncation points as bytes", "anchors": ["mmd/pmx_parser.go: Parse", "mmd/base_parser.go: read"]}
{"id": "C18", "title": "Names are unique after FixNames", "statement": "After FixNames all object names are pairwise different and all material names are pairwise different; number, order and everything except the names is unchanged; an entry keeps its name unless an earlier entry has ended up with that name, and otherwise gets the name followed by \"_n\" with the smallest free n; a document whose names are unique is not changed; a second call changes nothing.", "quantifier": "all documents", "why_tests_cant": "names can collide with generated names in unboundedly many patterns", "anchors": ["mqo/mqo.go FixNames"]}
{"id": "C19", "title": "Object ids are unique after FixObjectID", "statement": "After FixObjectID every object has a non-zero id and no two objects share one.", "quantifier": "all object lists", "why_tests_cant": "collisions depend on the combination of position and explicit ids", "anchors": ["mqo/mqo.go: FixObjectID"]}
{"id": "C20", "title": "Flipping a face twice is the identity", "statement": "Face.Flip reverses vertex order, UVs and normals consistently; flipping twice restores the face; the set of (vertex, uv) corners is unchanged.", "quantifier": "all faces of any number of corners", "why_tests_cant": "in-place reversal loops have off-by-one cases for odd and even sizes", "anchors": ["mqo/mqo.go: Face.Flip"]}
{"id": "C21", "title": "Object world transforms follow the object tree", "statement": "GetWorldTransforms assigns to each object the product of the local transforms of its ancestors (by Depth) and its own.", "quantifier": "all object lists with arbitrary depths", "why_tests_cant": "the ancestor stack must be right for every depth sequence", "anchors": ["mqo/mqo.go: GetWorldTransforms"]}
{"id": "C22", "title": "Object rotation survives set and get", "statement": "GetRotation after SetRotation(q) denotes the rotation q.", "quantifier": "all unit quaternions", "why_tests_cant": "the two functions use Euler orders that agree on single-axis rotations", "anchors": ["mqo/mqo.go: SetRotation, GetRotation"]}
{"id": "C23", "title": "Bone weights are recorded per object and vertex", "statement": "SetVertexWeight(obj, vertex, w) adds exactly one entry, to the weight group of that object, leaves all other groups untouched, and never creates two groups for one object.", "quantifier": "all sequences of SetVertexWeight calls", "why_tests_cant": "histories of calls interleaving objects", "anchors": ["mqo/bone_plugin.go: SetVertexWeight"]}
{"id": "C24", "title": "Writing a document twice gives the same plugin data", "statement": "Preparing the bone plugin for serialization is idempotent: doing it twice leaves the same object list as doing it once.", "quantifier": "all bone plugin states", "why_tests_cant": "requires comparing states over repeated calls", "anchors": ["mqo/bone_plugin.go: PreSerialize"]}
{"id": "C25", "title": "MQO numbers and blocks survive write and read", "statement": "Vertex, face and material index blocks written by the MQO writer are tokenised and read back with the same integers and the same structure.", "quantifier": "all faces with non-negative indices, any number of them", "why_tests_cant": "the text grammar is written and read by independent code", "anchors": ["mqo/mqo_writer.go: WriteMQO", "mqo/mqo_parser.go: readObject, readInt, procAttrs"]}
{"id": "C26", "title": "Faces without material survive write and read", "statement": "A face whose material is -1 (no material) is written and read back as -1 without disturbing the rest of the line.", "quantifier": "all faces with material -1", "why_tests_cant": "negative numbers are tokenised differently from positive ones", "anchors": ["mqo/mqo_parser.go: readInt", "mqo/mqo_writer.go: WriteMQO"]}
{"id": "C27", "title": "Applying a morph moves exactly the morph's vertices, linearly", "statement": "Applying a morph target with weight w moves each vertex by w times (target - base), weight 0 is the identity, weight 1 reaches the target, and two applications from the same base add up.", "quantifier": "all vertex lists, targets and weights over exact arithmetic", "why_tests_cant": "linearity is a statement about all weights", "anchors": ["mqo/morph_plugin.go: Apply, MorphTargetList.Apply"]}
{"id": "C28", "title": "Material morphs tolerate missing targets", "statement": "Applying a morph whose target material does not exist does not crash.", "quantifier": "all morphs and material lists", "why_tests_cant": "needs a document where a referenced name is missing", "anchors": ["mqo/morph_plugin.go: ApplyMaterialMorph"]}
{"id": "C29", "title": "FBX polygon index encoding round-trips", "statement": "Building a geometry from a face list and decoding its PolygonVertexIndex gives back the same faces, and each index of a non-empty face keeps its position.", "quantifier": "all lists of non-empty faces with indices in [0, 2^31)", "why_tests_cant": "the end of each polygon is only marked by complementing its last index", "anchors": ["fbx/fbx_geometry.go: NewGeometry, Init"]}
{"id": "C30", "title": "FBX object ids are unique and adding is idempotent", "statement": "Adding any sequence of objects to a document gives every object a distinct id, adding the same object again changes nothing, and every added object can be found by its id.", "quantifier": "all sequences of AddObject calls on documents built by the library", "why_tests_cant": "histories of calls, with ids already taken", "anchors": ["fbx/fbx_document.go: AddObject, newID"]}
{"id": "C31", "title": "FBX property set is visible to get", "statement": "GetProperty(name) after SetProperty(name, v) returns v, and other properties are unaffected.", "quantifier": "all property lists and all histories of gets and sets", "why_tests_cant": "a cache is filled lazily, so the outcome depends on the call history", "anchors": ["fbx/fbx_object.go: GetProperty, SetProperty"]}
{"id": "C32", "title": "FBX binary node trees are parsed faithfully", "statement": "Parsing the binary encoding of any node tree yields that tree, for every nesting depth, attribute list and child count, for 32-bit and 64-bit record headers, and for seekable input consumes exactly the declared bytes.", "quantifier": "all finite node trees", "why_tests_cant": "nested records with end offsets; only two example files exist", "anchors": ["fbx/binary_parser.go: readNode, Parse"]}
{"id": "C33", "title": "FBX binary parsing does not depend on the reader being seekable", "statement": "Skipping inside a stream leaves the reader's position equal to the target, whether or not the underlying reader can seek.", "quantifier": "all positions and both kinds of reader", "why_tests_cant": "tests read from files, which always seek", "anchors": ["fbx/binary_parser.go: positionReader.SkipTo"]}
{"id": "C34", "title": "FBX layer element data set by the API is stored", "statement": "After setting a layer element (normals, UVs) on a geometry its values can be found in the geometry's node.", "quantifier": "all value lists", "why_tests_cant": "needs the written tree to be inspected for every element kind", "anchors": ["fbx/fbx_geometry.go: setLayerElementNode"]}
{"id": "C35", "title": "FBX world matrix is the product along the parent chain", "statement": "GetWorldMatrix of a model is the product of the local matrices from the root to it.", "quantifier": "all finite parent chains", "why_tests_cant": "any depth", "anchors": ["fbx/fbx_model.go: GetWorldMatrix"]}
{"id": "C36", "title": "MMD to MQO: every face ends in exactly one object", "statement": "The conversion distributes the faces over objects so that every face goes into exactly one group, faces that share a vertex are in the same group unless split by morph grouping, and the per-group vertex numbering is consistent.", "quantifier": "all meshes", "why_tests_cant": "connected components over arbitrary meshes", "anchors": ["converter/mmd2mqo.go: genMorphGroup, convertFaces"]}
{"id": "C37", "title": "MMD and MQO coordinates are inverse", "statement": "Converting a position from MMD to MQO and back with the CLI's default scale gives the same position, and both directions mirror exactly one axis.", "quantifier": "all positions over exact arithmetic", "why_tests_cant": "needs a proof for all coordinates, not samples", "anchors": ["converter/mmd2mqo.go: convertVec3", "converter/mqo2mmd.go: convertVec3"]}
{"id": "C38", "title": "MQO to PMX: material face counts account for every face", "statement": "In the produced document the material counts add up to three times the number of faces, faces are grouped by material in material order, an n-gon yields n-2 triangles, and every vertex index is in range.", "quantifier": "all documents", "why_tests_cant": "the PMX reader assigns materials by running totals, so any miscount shifts all following materials", "anchors": ["converter/mqo2mmd.go: Convert"]}
{"id": "C39", "title": "Rigid body kinds survive MMD to MQO to MMD", "statement": "A kinematic (mode 0) body converted to MQO and back is kinematic again, and a body without bone stays without bone.", "quantifier": "all bodies", "why_tests_cant": "needs the composition of two converters", "anchors": ["converter/mmd2mqo.go: Convert", "converter/mqo2mmd.go: convertBody"]}
{"id": "C40", "title": "glTF skin weights: at most four influences, normalised", "statement": "For every vertex the exported skin has at most four joints, keeps the largest weights, refers only to existing joints, and when influences had to be dropped the rest is renormalised to sum 1.", "quantifier": "all weight assignments", "why_tests_cant": "more than four influences in arbitrary order", "anchors": ["converter/mqo2gltf.go: getWeights"]}
{"id": "C41", "title": "glTF meshes reference only existing vertices", "statement": "Every index of an exported primitive is below the number of exported vertices, every exported vertex stems from a source vertex, each triangle has reversed winding, and position, normal, uv, joint arrays have equal length.", "quantifier": "all objects with valid faces", "why_tests_cant": "vertices are split by UV on the fly; indices depend on the history of the loop", "anchors": ["converter/mqo2gltf.go: ConvertObject"]}
{"id": "C42", "title": "glTF materials keep their identity", "statement": "The material index used by a primitive refers to the exported material converted from the face's material; unused and ignored materials are not exported and ignored faces produce no triangles.", "quantifier": "all material lists and usage patterns", "why_tests_cant": "two passes number materials independently", "anchors": ["converter/mqo2gltf.go: Convert, materialMap"]}
{"id": "C43", "title": "glTF bone nodes are at the bones' positions", "statement": "The global translation of each exported joint node equals the bone's position times the scale, and each joint is a child of its parent's node.", "quantifier": "all bone forests listed parent first", "why_tests_cant": "translations are relative to the parent, for any depth", "anchors": ["converter/mqo2gltf.go: addBoneNodes"]}
{"id": "C44", "title": "glTF node hierarchy follows object depth", "statement": "Each exported object node is the child of the closest preceding object with smaller depth, or a scene root; each node has one parent.", "quantifier": "all depth sequences", "why_tests_cant": "depth lists can jump arbitrarily", "anchors": ["converter/mqo2gltf.go: Convert (nodePath)"]}
{"id": "C45", "title": "glTF meshes with several primitives convert to valid faces", "statement": "Converting a mesh with any number of primitives gives faces whose corners are the vertices of their own primitive.", "quantifier": "all meshes with any number of primitives", "why_tests_cant": "needs meshes with more than one primitive with their own vertex data", "anchors": ["converter/gltf2mqo.go: convertMesh"]}
{"id": "C46", "title": "Animation weight tracks have the right layout", "statement": "In exported morph animation tracks the weight of target i at key k is stored at k*n+i, all others are zero, and the array has k*n entries.", "quantifier": "all key lists and targets", "why_tests_cant": "index arithmetic over arbitrary sizes", "anchors": ["converter/glbanim.go"]}
{"id": "C47", "title": "Joint widening preserves joint indexes", "statement": "FixJointComponentType turns byte joint data into 16-bit little-endian data with the same values and leaves other data in place.", "quantifier": "all byte buffers", "why_tests_cant": "in-place growth of a shared buffer", "anchors": ["gltfutil/gltf_joint.go: FixJointComponentType"]}
{"id": "C48", "title": "glTF scale transform scales the whole model", "statement": "Applying a scale transform to a glTF document scales node translations together with mesh positions.", "quantifier": "all documents and scales", "why_tests_cant": "only visible on models with nodes off the origin", "anchors": ["gltfutil/gltf_utils.go: ApplyTransform"]}
{"id": "C49", "title": "Joint reset keeps world positions", "statement": "Removing node rotations keeps every node's global position, for any node tree.", "quantifier": "all node forests with unit rotations", "why_tests_cant": "rotations are pushed down through arbitrarily deep trees", "anchors": ["gltfutil/gltf_joint.go: ResetJointMatrix"]}
{"id": "C50", "title": "VRM required bone check is exact", "statement": "CheckRequiredBones returns exactly the required bone names for which no humanoid bone is assigned, in order, and ValidateBones fails exactly when there is one.", "quantifier": "all bone lists", "why_tests_cant": "set difference for all lists", "anchors": ["vrm/vrm.go: CheckRequiredBones", "vrm/vrm_extension.go: ValidateBones"]}
{"id": "C51", "title": "VRM config: one node per humanoid bone, user config wins", "statement": "After ApplyConfig each humanoid bone name appears at most once, refers to an existing non-mesh node whose name is listed in the mapping, and mappings listed earlier (the user's, before the preset's) win; an empty mapping suppresses later ones.", "quantifier": "all documents, configs and presets", "why_tests_cant": "interaction of lists, presets and fallbacks", "anchors": ["converter/vrmconfig.go: ApplyConfig, applyConfigInternal, MergePreset"]}
{"id": "C52", "title": "VRM spring bone groups never overlap", "statement": "No two bones registered as spring bone roots are the same node or ancestor and descendant, whatever the order in which matching nodes are visited.", "quantifier": "all node forests, patterns and map iteration orders", "why_tests_cant": "Go map iteration order is random; trees are arbitrary", "anchors": ["converter/vrmconfig.go: findReursive, registerReursive, applyConfigInternal"]}
{"id": "C53", "title": "VRM morph export covers every morph target", "statement": "With exportAllMorph each morph target of each mesh is bound by a blend shape group, and each target not mentioned by the mapping exactly once.", "quantifier": "all meshes and mappings", "why_tests_cant": "interaction of mapping and export-all pass", "anchors": ["converter/vrmconfig.go: ApplyConfig"]}
{"id": "C54", "title": "Merging a preset never crashes and never overrides", "statement": "MergePreset keeps every setting of the user config and only adds missing ones; it does not crash on any config that can be loaded.", "quantifier": "all configs and presets", "why_tests_cant": "configs without optional sections", "anchors": ["converter/vrmconfig.go: MergePreset"]}
{"id": "C55", "title": "Unity YAML streams are split into their documents", "statement": "Splitting a stream of documents separated by '---' headers yields one entry per document, in order, with its tag and anchor, and the body parses from its own text only.", "quantifier": "all document lists", "why_tests_cant": "scanner state over arbitrary text", "anchors": ["unity/unity_yaml.go: ParseYamlDocuments"]}
{"id": "C56", "title": "Built-in Unity meshes are well formed", "statement": "Every face of the generated sphere, cylinder, capsule, cube, quad and plane meshes refers to existing vertices and has as many UVs as corners, for every tessellation.", "quantifier": "all tessellation parameters in the supported range", "why_tests_cant": "closed formulas for indices with special cases at the poles", "anchors": ["unity/unity_builtin.go: Sphere, Cylinder, Capsule, Cube, Quad, Plane"]}
{"id": "C57", "title": "Package extraction stays inside its directory", "statement": "Extracting a .unitypackage only writes files below the extraction directory.", "quantifier": "all archives, including hostile ones", "why_tests_cant": "needs crafted entry names", "anchors": ["unity/unity_assets.go: extractPackage"]}
{"id": "C58", "title": "Hiding an object hides exactly its subtree", "statement": "With -hide, an object is invisible afterwards iff it was invisible before or it or one of its ancestors matches a pattern.", "quantifier": "all object lists and patterns", "why_tests_cant": "subtrees are implied by depth runs", "anchors": ["cmd/modelconv/main.go: main"]}
{"id": "C59", "title": "rot180 is a rotation", "statement": "The -rot180 option applies an orientation preserving transform and applying it twice is the identity.", "quantifier": "all scales and points", "why_tests_cant": "mirror mistakes are invisible on symmetric models", "anchors": ["cmd/modelconv/main.go: main"]}
{"id": "C60", "title": "Loading, saving and loading a PMX file again is stable", "statement": "A document loaded from a PMX file that has no joints, or uses one size for bone and body indexes (see C13), can be saved, and loading the result gives the document first loaded except that its text encoding is UTF-8; saving that again gives the same bytes.", "quantifier": "all byte strings that load", "why_tests_cant": "files come from other tools, so their header flags and index sizes are arbitrary", "anchors": ["mmd/pmx_parser.go: Parse", "mmd/pmx_writer.go: WritePMX"]}
{"id": "C61", "title": "PMD files are read as the format lays them out", "statement": "Every field of a PMD file (vertices, faces, materials with texture and sphere names, bones with IK chains, morphs relative to the base morph) ends up in the field of the document it belongs to, whatever follows the morph section.", "quantifier": "all well-formed PMD files", "why_tests_cant": "a wrong field width shifts everything behind it; sample files have only a few shapes", "anchors": ["mmd/pmd_parser.go: Parse"]}
{"id": "C62", "title": "The MMD loader picks the right format", "statement": "Parse reads a file with the PMD tag as PMD, a file with the PMX tag as PMX, and a saved PMX document through the generic entry point gives the same result as through the PMX parser.", "quantifier": "all byte strings of at least four bytes", "why_tests_cant": "the look-ahead reader must not lose bytes for any file size", "anchors": ["mmd/pmx_parser.go: Parse"]}
{"id": "C63", "title": "VMD files are read as the format lays them out", "statement": "All bone and morph key frames of a VMD file are returned in file order with name, frame number, transform and interpolation bytes, whatever follows them.", "quantifier": "all well-formed VMD files", "why_tests_cant": "key frame counts and names are arbitrary", "anchors": ["mmd/vmd_parser.go: Parse"]}
{"id": "C64", "title": "Truncated VMD files are reported", "statement": "Parsing a proper prefix of a VMD file returns an error.", "quantifier": "all VMD files and all cut positions", "why_tests_cant": "every cut position behaves differently; the parser overwrites its error state", "anchors": ["mmd/vmd_parser.go: Parse", "mmd/base_parser.go"]}
{"id": "C65", "title": "FixNames leaves unique names alone", "statement": "An object or material whose name no other entry has keeps that name.", "quantifier": "all documents", "why_tests_cant": "needs a generated name that meets a name given by the user", "anchors": ["mqo/mqo.go FixNames"]}
{"id": "C66", "title": "Weights can be added to a loaded bone", "statement": "Setting a vertex weight on a bone that was read from a file adds it to the existing weight group of the object.", "quantifier": "all bones with weights, all objects, vertices and weights", "why_tests_cant": "depends on hidden state that is not in the file", "anchors": ["mqo/bone_plugin.go SetVertexWeight"]}
{"id": "C67", "title": "Transforming an object keeps normals perpendicular", "statement": "Under Object.ApplyTransform with an invertible affine matrix, each normal keeps its scalar product with every difference of vertices (so perpendicular stays perpendicular), faces keep vertices, material and UVs, and transforms compose on vertices.", "quantifier": "all objects, all invertible affine matrices", "why_tests_cant": "holds for all matrices including shears and reflections", "anchors": ["mqo/utils.go Object.ApplyTransform"]}
{"id": "C68", "title": "Triangulating an object keeps corner data", "statement": "Object.Triangulate succeeds on objects with valid faces, gives only triangles, leaves triangles alone and replaces every other face by n-2 triangles that cover it and whose corners carry the vertex, UV, normal and the material of the corresponding corner; a second call changes nothing.", "quantifier": "all objects with valid indices", "why_tests_cant": "quantifies over all polygons", "anchors": ["mqo/utils.go Object.Triangulate", "geom/triangulate.go"]}
{"id": "C69", "title": "Every corner has a normal after FixhNormals", "statement": "If all indices are valid, FixhNormals succeeds, every face then has one normal per corner, faces that had them are unchanged, computed normals have length 1 and agree at a common vertex.", "quantifier": "all objects with valid indices (real arithmetic for the length)", "why_tests_cant": "degenerate faces and zero sums are corner cases among all inputs", "anchors": ["mqo/utils.go FixhNormals", "mqo/utils.go GetSmoothNormals"]}
{"id": "C70", "title": "A cloned object equals the original", "statement": "Object.Clone returns an object with the same contents.", "quantifier": "all objects", "why_tests_cant": "depends on which fields are filled", "anchors": ["mqo/mqo.go Clone"]}
{"id": "C71", "title": "Vertex ids resolve to valid indices", "statement": "GetVertexIndexByID answers -1 or an index in range.", "quantifier": "all objects with a valid id table, all ids", "why_tests_cant": "all integers", "anchors": ["mqo/mqo.go GetVertexIndexByID"]}
{"id": "C72", "title": "Turning a bone moves exactly its subtree, rigidly", "statement": "BoneTransform turns the bone and all bones below it rigidly about the bone, leaves other bones and vertices without weight on them alone, and blends weighted vertices linearly.", "quantifier": "all bone lists with parents before children; all unit quaternions, weights and positions", "why_tests_cant": "bone trees of any shape", "anchors": ["mqo/bone_plugin.go BoneTransform"]}
{"id": "C73", "title": "Connecting models sets the parent", "statement": "After AddConnection(parent, child) for two FBX models the world matrix of the child is the world matrix of the parent times the local matrix of the child.", "quantifier": "all models", "why_tests_cant": "depends on whether the document was read or built", "anchors": ["fbx/fbx_document.go AddConnection", "fbx/fbx_model.go GetWorldMatrix"]}
{"id": "C74", "title": "The matrix of a model is current", "statement": "GetMatrix of an FBX model returns the matrix made of its present translation, rotation and scaling.", "quantifier": "all models, all sequences of setter calls and queries", "why_tests_cant": "depends on the history of calls", "anchors": ["fbx/fbx_model.go GetMatrix", "fbx/fbx_model.go SetTranslation"]}
{"id": "C75", "title": "The axis matrix of an FBX document is a signed permutation", "statement": "For axis numbers 0 to 2 CoordMatrix takes X, Y and Z from the components named by the coordinate, up and front axis with their signs; with three different axes and signs of 1 or -1 it keeps all distances.", "quantifier": "all settings, all points", "why_tests_cant": "all combinations and all points", "anchors": ["fbx/fbx_document.go CoordMatrix"]}
{"id": "C76", "title": "The binary FBX parser always returns", "statement": "On every input the binary parser returns a tree or an error (or hands over to the text parser); it never loops or recurses without end.", "quantifier": "all byte strings, seekable or not, any decompressor behaviour", "why_tests_cant": "hostile offsets can be arranged in unboundedly many ways", "anchors": ["fbx/binary_parser.go"]}
{"id": "C77", "title": "A cut binary FBX file is rejected", "statement": "A binary FBX file that ends inside a record is rejected with an error.", "quantifier": "all files cut at any place inside a record", "why_tests_cant": "all cut points of all files", "anchors": ["fbx/binary_parser.go"]}
{"id": "C78", "title": "Morph targets have the shape of the MMD morph", "statement": "When an MMD model is converted to MQO, each vertex (or UV) morph becomes an object in which exactly the vertices named by the morph are moved, by the offsets of the morph, compared to its base object.", "quantifier": "all MMD documents whose indices are in range", "why_tests_cant": "depends on how faces and morphs overlap", "anchors": ["converter/mmd2mqo.go Convert"]}
{"id": "C79", "title": "PMX morph offsets are differences", "statement": "When an MQO document is converted to MMD, each morph offset is the converted position in the target object minus the converted position in the base object, and its vertex stems from that base vertex.", "quantifier": "all MQO documents", "why_tests_cant": "all pairs of base and target", "anchors": ["converter/mqo2mmd.go Convert"]}
{"id": "C80", "title": "MMD vertices get at most four existing bones", "statement": "When an MQO document is converted to MMD, each vertex carries the first four influences (in bone order) of its MQO vertex, divided by 100, and every bone number exists.", "quantifier": "all MQO documents", "why_tests_cant": "all weight tables", "anchors": ["converter/mqo2mmd.go setWeights"]}
{"id": "C81", "title": "Normals are mirrored with the positions", "statement": "When an MQO document is converted to MMD, normals undergo the same mirroring as positions.", "quantifier": "all MQO documents", "why_tests_cant": "sign conventions for all normals", "anchors": ["converter/mqo2mmd.go Convert"]}
{"id": "C82", "title": "Bones survive MMD to MQO to MMD", "statement": "Bones that inherit no rotation come back from MQO with their names, positions and parents, in the same order; a bone that inherits rotation strongly from a known bone becomes the child of that bone.", "quantifier": "all lists of bones with parents in range, all thresholds", "why_tests_cant": "index arithmetic over all bone trees", "anchors": ["converter/mmd2mqo.go convertBones", "converter/mqo2mmd.go convertBone"]}
{"id": "C83", "title": "Weights of a bone named twice add up", "statement": "When an MMD model is converted to MQO each vertex gets, per bone, a hundred times the sum of the positive weights of that bone.", "quantifier": "all vertices with valid bones", "why_tests_cant": "all weight lists with repetitions", "anchors": ["converter/mmd2mqo.go setWeights", "converter/mmd2mqo.go Convert"]}
{"id": "C84", "title": "Sizes of rigid bodies stay positive", "statement": "The size of a rigid body with positive size is positive after conversion between MMD and MQO in either direction.", "quantifier": "all bodies", "why_tests_cant": "sign conventions for all sizes", "anchors": ["converter/mmd2mqo.go convertBody", "converter/mqo2mmd.go convertBody"]}
{"id": "C85", "title": "A skin at rest moves nothing", "statement": "In an exported glTF document, the world matrix of each joint node times its inverse bind matrix is the identity, so that the bind pose shows the mesh as it is.", "quantifier": "all bone forests listed parent first", "why_tests_cant": "the product runs along the whole chain of parents", "anchors": ["converter/mqo2gltf.go: addBoneNodes, addSkin"]}
{"id": "C86", "title": "glTF morph targets reach the target shape", "statement": "For each exported vertex, its position plus the offset of a morph target equals the scaled position of the source vertex in the target object, also for vertices that were split.", "quantifier": "all objects, all targets with the same number of vertices", "why_tests_cant": "vertices are split by UV; offsets have to follow", "anchors": ["converter/mqo2gltf.go: ConvertObject"]}
{"id": "C87", "title": "glTF export and import keep the faces", "statement": "Importing the primitives the exporter writes for an object gives, material by material, its triangles with the same (scaled) corner positions and the same orientation.", "quantifier": "all objects, scales and materials", "why_tests_cant": "two independent index reversals have to cancel on arbitrary meshes", "anchors": ["converter/mqo2gltf.go: ConvertObject", "converter/gltf2mqo.go: convertMesh"]}
{"id": "C88", "title": "glTF nodes become bones", "statement": "Importing the joints of a glTF document gives one bone per node of the tree, with the parent of the node as its parent and the position summed along the path from the root.", "quantifier": "all node trees", "why_tests_cant": "recursive over arbitrarily deep trees", "anchors": ["converter/gltf2mqo.go: convertBone"]}
{"id": "C89", "title": "Morph animation keeps key times", "statement": "In an exported animation each weight key of a morph channel is at the time of that key.", "quantifier": "all animations with several morph channels", "why_tests_cant": "depends on several channels of the same mesh with different key times", "anchors": ["converter/glbanim.go: addMorphChannels"]}
{"id": "C90", "title": "Joint reset removes the rotations and keeps the bind pose", "statement": "After resetting joints every node without skin has no rotation, and each joint world matrix times its inverse bind matrix is what it was.", "quantifier": "all node forests", "why_tests_cant": "needs several passes over arbitrarily deep trees", "anchors": ["gltfutil/gltf_joint.go: ResetJointMatrix"]}
{"id": "C91", "title": "Joint reset does not move meshes", "statement": "Geometry attached to a node without skin stays where it is when joints are reset.", "quantifier": "all node forests with rotations", "why_tests_cant": "the mesh of a node is not looked at by the code", "anchors": ["gltfutil/gltf_joint.go: ResetJointMatrix"]}
{"id": "C92", "title": "Accessor bounds are exact after a transform", "statement": "After applying a transform to a glTF document, the minimum and maximum of each accessor of positions or morph targets are the smallest and largest components of its data.", "quantifier": "all documents and matrices", "why_tests_cant": "bounds of arbitrary data; accessors shared by primitives", "anchors": ["gltfutil/gltf_utils.go: ApplyTransform"]}
{"id": "C93", "title": "The first person bone exists", "statement": "The first person bone of an exported VRM is a node of the document.", "quantifier": "all documents and configurations", "why_tests_cant": "depends on which humanoid bones were assigned", "anchors": ["converter/vrmconfig.go: ApplyVRMConfig"]}
{"id": "C94", "title": "The VRM extension is stored once", "statement": "Asking a glTF document for its VRM extension stores it in the document, lists the extension as used exactly once, and asking again returns the same extension.", "quantifier": "all documents", "why_tests_cant": "states reached by repeated calls", "anchors": ["vrm/vrm.go: Document.VRM"]}
{"id": "C95", "title": "Spring chains come from the physics bodies", "statement": "With detection of animated bones, the spring groups are the chains of bones with dynamic bodies that are not below another such chain.", "quantifier": "all node forests and physics settings", "why_tests_cant": "chains over arbitrary trees", "anchors": ["converter/vrmconfig.go: ApplyVRMConfig"]}
{"id": "C96", "title": "Applying morph mappings never crashes", "statement": "Morph mappings of a VRM configuration can be applied to every document.", "quantifier": "all documents and configurations", "why_tests_cant": "needs unusual nodes", "anchors": ["converter/vrmconfig.go: ApplyVRMConfig"]}
{"id": "C97", "title": "Built-in solids are closed", "statement": "In the generated cube, sphere, cylinder and capsule every edge is used as often in one direction as in the other, so that the surfaces are closed and consistently oriented.", "quantifier": "all tessellation parameters", "why_tests_cant": "closed formulas for indices with special cases at poles and seams", "anchors": ["unity/unity_builtin.go: Cube, Sphere, Cylinder, Capsule"]}
{"id": "C98", "title": "Built-in round solids have their radius", "statement": "The vertices of the generated sphere, cylinder and capsule lie on the surface of radius one half.", "quantifier": "all tessellation parameters, real arithmetic", "why_tests_cant": "trigonometric identities for all angles", "anchors": ["unity/unity_builtin.go: Sphere, Cylinder, Capsule"]}
{"id": "C99", "title": "The input is not overwritten by default", "statement": "Without an output argument the command writes a file with the stem of the input and another type, never over the input.", "quantifier": "all input paths and formats", "why_tests_cant": "all paths, including upper case types and dots in directories", "anchors": ["cmd/modelconv/main.go: main"]}
{"id": "C100", "title": "Changing bone parents", "statement": "With -chparent every named bone gets the bone that is named as its parent, and nothing else changes; the command does not crash.", "quantifier": "all bone lists and settings", "why_tests_cant": "names that occur several times or not at all", "anchors": ["cmd/modelconv/main.go: main"]}
{"id": "C101", "title": "The MQO parser ends on every text", "statement": "Parsing an MQO text ends for every input: it yields a document and a number of errors, or fails in a defined way, and never loops.", "quantifier": "all character sequences, well formed or not", "why_tests_cant": "the parser is a set of mutually nested token loops; a loop that does not consume a token on some malformed text hangs", "anchors": ["mqo/mqo_parser.go Parse, procObj, procArray, skipBlock"]}
{"id": "C102", "title": "An MQO document written and parsed is the same document up to the stated rounding", "statement": "Parsing the text of a written document reports no errors and yields the document with exactly these differences: colours and coefficients rounded to the written decimals, normals and UVs of faces dropped when their number differs from the corners, fields the format does not carry reset to the defaults.", "quantifier": "all documents with printable names, finite numbers and faces with a material; any number of materials, objects, vertices, faces and shader parameters", "why_tests_cant": "writer and parser are separate code over an unbounded grammar", "anchors": ["mqo/mqo_writer.go WriteMQO", "mqo/mqo_parser.go Parse"]}
{"id": "C103", "title": "Saving a loaded MQO document changes nothing", "statement": "A document that is already in the form the format carries is written and parsed back unchanged.", "quantifier": "all such documents", "why_tests_cant": "fixed point over all documents", "anchors": ["mqo/mqo_writer.go WriteMQO", "mqo/mqo_parser.go Parse"]}
{"id": "C104", "title": "The flags of objects survive saving", "statement": "Visibility, folding, depth, shading, facet, mirror and lock of every object survive saving and loading an MQO file.", "quantifier": "all documents", "why_tests_cant": "each flag is written and read by separate code", "anchors": ["mqo/mqo_writer.go WriteMQO", "mqo/mqo_parser.go readObject"]}
{"id": "C105", "title": "The FBX text reader ends on every file", "statement": "Reading an ASCII FBX file ends for every input: it yields a tree of nodes or an error, and never loops.", "quantifier": "all byte sequences", "why_tests_cant": "the reader is a set of nested token loops over arbitrary bytes; a loop that does not consume a byte on some malformed text hangs", "anchors": ["fbx/text_parser.go", "fbx/fbx.go Load"]}
{"id": "C106", "title": "A document saved as ASCII FBX and loaded has the same tree", "statement": "Loading the text of a saved document yields the same tree of node names and children, and every attribute as the format carries it (numbers as 64-bit numbers, arrays as arrays of numbers, texts). Only the node FileId is left out.", "quantifier": "all trees whose names are identifiers and whose numbers and texts are written in a form the reader understands", "why_tests_cant": "writer and reader are separate code over an unbounded grammar with nesting", "anchors": ["fbx/fbx.go Save", "fbx/fbx_node.go Dump", "fbx/text_parser.go Parse"]}
{"id": "C107", "title": "Reading accessors agree before and after saving", "statement": "Integers, texts, connections, vertex coordinates, polygon indices and UVs read through the API are the same after saving as ASCII FBX and loading.", "quantifier": "all values of the types the API creates, all arrays with at least one element", "why_tests_cant": "the value types change on loading (all integers become 64-bit, float arrays may become integer arrays); agreement is over all values", "anchors": ["fbx/fbx_node.go ToInt64, ToInt32Array, ToFloat32Array, GetVec3Array", "fbx/text_parser.go parseArrayProp"]}
{"id": "C108", "title": "Texts and names survive saving as ASCII FBX", "statement": "Every text attribute, in particular object names and file names, is the same after saving as ASCII FBX and loading; a model is found by its name as before.", "quantifier": "all texts", "why_tests_cant": "the quoting of the writer is undone nowhere or somewhere; all characters matter", "anchors": ["fbx/fbx_node.go String", "fbx/text_parser.go", "fbx/fbx_model.go FindChildModel"]}
{"id": "C109", "title": "A saved ASCII FBX can be loaded for all numbers", "statement": "A document with any finite number as attribute can be loaded after saving it as ASCII FBX.", "quantifier": "all finite numbers at any place in the tree", "why_tests_cant": "the printed form depends on the magnitude", "anchors": ["fbx/fbx_node.go String", "fbx/text_parser.go"]}
{"id": "C110", "title": "Empty arrays are kept and do not disturb what follows", "statement": "An empty array attribute is read as an empty array at its place, and nodes behind it keep their parent.", "quantifier": "all documents with empty arrays", "why_tests_cant": "the error shows only in the nodes that follow", "anchors": ["fbx/text_parser.go parseArrayProp", "fbx/fbx_node.go String"]}
{"id": "C111", "title": "The length of the first comment line does not matter", "statement": "An ASCII FBX file that begins with a comment line is read whatever the length of that line.", "quantifier": "all files", "why_tests_cant": "the bytes read to recognise the format must be given back at the right place", "anchors": ["fbx/fbx.go Load", "fbx/text_parser.go"]}
{"id": "C112", "title": "Vertex IDs denote the same vertices after saving an MQO file", "statement": "The vertex that an ID denotes (through the table of IDs or by its number) is the same after writing and parsing an MQO document, so that bone weights stay with their vertices.", "quantifier": "all documents, all tables of vertex IDs, all IDs", "why_tests_cant": "the writer fills in numbers for vertices without ID; a clash depends on the whole table", "anchors": ["mqo/mqo_writer.go WriteMQO", "mqo/mqo_parser.go readObject", "mqo/mqo.go GetVertexIndexByID"]}
{"id": "C113", "title": "Exported glTF meshes have the normals of the corners", "statement": "Each corner of an exported triangle has the normal that the corner has in the model.", "quantifier": "all meshes of triangles with normals, with and without UVs", "why_tests_cant": "whether two corners share an exported vertex depends on all faces before", "anchors": ["converter/mqo2gltf.go ConvertObject"]}
{"id": "C114", "title": "FBX meshes keep polygons, texture coordinates, materials and normals", "statement": "Converting an FBX mesh to MQO gives one face per polygon, with the corners in reverse order, each corner with its texture coordinate (V flipped) and normal (moved by the transform of the mesh), and each face with the material its polygon names.", "quantifier": "all meshes, transforms, material tables and mapping and reference types", "why_tests_cant": "the arrays are addressed by running corner numbers; an off-by-one shows only on meshes of mixed polygon sizes", "anchors": ["converter/fbx2mqo.go convertGeometry"]}
{"id": "C115", "title": "FBX blend shapes become morph targets with the right vertices", "statement": "Each shape of a converted mesh becomes one object with the name of the shape, whose vertices are the moved vertices of the mesh placed like the mesh; a list of morph targets names the mesh and its shapes in order.", "quantifier": "all documents, shapes, index lists (repeated or out of range indexes too)", "why_tests_cant": "shapes are sparse: which vertex moves depends on index lists and on the transform", "anchors": ["converter/fbx2mqo.go convertShape", "converter/fbx2mqo.go convertModel", "converter/fbx2mqo.go convertGeometry"]}
{"id": "C116", "title": "FBX bones form the skeleton of the document", "statement": "The bones of the result are exactly the models named by the deformers of the converted meshes and everything above them, each once; they are numbered from 1, parents come first and each bone hangs on the bone of its parent model and stands at its bind position. A well-formed document without cycles is converted without a panic.", "quantifier": "all documents and options without a target model", "why_tests_cant": "bones are found while walking upwards from deformers in any order, with a shared table of ids", "anchors": ["converter/fbx2mqo.go convertDeformer", "converter/fbx2mqo.go convert"]}
{"id": "C117", "title": "FBX bone weights stay with their vertices", "statement": "The weights of a bone for the object of a mesh are those of the deformers of that mesh for that bone, in order and each under the id of its vertex; a bone has no weights for other objects.", "quantifier": "all documents, all bones, all meshes, several deformers per bone and mesh", "why_tests_cant": "weights of one bone are collected from many meshes; ids are assigned while objects are appended", "anchors": ["converter/fbx2mqo.go convertDeformer", "mqo/bone_plugin.go SetVertexWeight", "mqo/mqo.go GetVertexIndexByID"]}
{"id": "C118", "title": "FBX models form a tree of objects", "statement": "Exactly the wanted models become objects, one each, with their names and ids; the order and depth of the objects give back the tree of the document; shapes are hidden objects below their mesh; existing objects stay.", "quantifier": "all documents and options without a target model", "why_tests_cant": "depth and order encode the tree only together; skipped bones and shapes lie in between", "anchors": ["converter/fbx2mqo.go convertModel", "converter/fbx2mqo.go convert", "converter/fbx2mqo.go hasGeometryNode"]}
{"id": "C119", "title": "FBX meshes stand where the document puts them", "statement": "Every vertex of a converted mesh is placed by the product of the matrices of all models above the mesh and the coordinate system of the document.", "quantifier": "all documents with matching parent and child links, at any depth", "why_tests_cant": "products of matrices along paths of any length", "anchors": ["converter/fbx2mqo.go convertModel", "fbx/fbx_model.go GetWorldMatrix"]}
{"id": "C120", "title": "Objects and bones have the plain names of FBX models", "statement": "The object and the bone of a model are called as the model, without the type that FBX adds to the name.", "quantifier": "all documents, both spellings of names", "why_tests_cant": "there are two spellings of names, by format of the file", "anchors": ["converter/fbx2mqo.go convertModel", "converter/fbx2mqo.go convertDeformer", "fbx/fbx_object.go Name"]}
{"id": "C121", "title": "Converting one model of an FBX document", "statement": "With a target model, the objects of that model and of everything below it are added, and its skeleton with them.", "quantifier": "all documents and target names", "why_tests_cant": "the option takes a way of its own through the code", "anchors": ["converter/fbx2mqo.go convert"]}
{"id": "C122", "title": "FBX weights have the scale of MQO weights", "statement": "A vertex bound with weight 1 to one bone is bound with weight 1 in the glTF document exported from the converted FBX document.", "quantifier": "all documents with skins", "why_tests_cant": "two converters have to agree on a unit", "anchors": ["converter/fbx2mqo.go convertDeformer", "converter/mqo2gltf.go getWeights"]}
{"id": "C123", "title": "Exported bone animation has the right channels", "statement": "Adding an animation to a glTF model gives, for each track and the bone with its name, one rotation channel if the track turns the bone and one translation channel if it moves the bone, on the node of the bone, with the times and values of that track; tracks without a bone give nothing, all channels lead to existing data, data already there stays and no node gets two channels of one kind.", "quantifier": "all animations and bones, all orders in which the maps are visited", "why_tests_cant": "key times are shared between tracks by comparing with the previous one, and maps are visited in random order", "anchors": ["converter/glbanim.go addBoneChannels"]}
{"id": "C124", "title": "Exported bone rotations are the mirrored rotations of the source", "statement": "An exported rotation does to mirrored and turned vectors what the rotation of the source (after the correction for an adjusted parent) does to the vectors themselves; unit quaternions stay unit quaternions.", "quantifier": "all rotations, vectors and rotation offsets", "why_tests_cant": "a wrong sign or order agrees on rotations about one axis", "anchors": ["converter/glbanim.go addBoneChannels", "geom/quaternion.go"]}
{"id": "C125", "title": "Exported bone translations have the scale and directions of the model", "statement": "For a bone without parent that stood at p in an MMD model converted with the default scale, an exported key with offset d puts the bone where the converted model has the point p + d, for models turned by 180 degrees too.", "quantifier": "all positions and offsets", "why_tests_cant": "the scale and the directions are fixed in three places of the program", "anchors": ["converter/glbanim.go addBoneChannels", "converter/mmd2mqo.go convertVec3", "cmd/modelconv/main.go"]}
{"id": "C126", "title": "Keys without offset leave bones in place", "statement": "In an exported translation channel a key with offset zero puts the node where it rests in the model.", "quantifier": "all bones of all models", "why_tests_cant": "concerns two functions that compute the translation of a node on their own", "anchors": ["converter/glbanim.go addBoneChannels", "converter/mqo2gltf.go addBoneNodes"]}
{"id": "C127", "title": "Animation follows the scale of the model", "statement": "In a model converted with any scale the exported keys put the bones where the converted model has the moved points.", "quantifier": "all scales, positions and offsets", "why_tests_cant": "the scale of the animation is a constant; the default hides it", "anchors": ["converter/glbanim.go addBoneChannels", "cmd/modelconv/main.go"]}
{"id": "C128", "title": "Exported emission is at most 1 and keeps its hue", "statement": "The emission of an exported material has no component above 1 and is the emission of the source, divided by one number that is not 1 only if the source has a component above 1, which then is the largest.", "quantifier": "all materials with an emission color, a plain emission or none", "why_tests_cant": "two sources of the value and three components", "anchors": ["converter/mqo2gltf.go convertMaterial"]}
{"id": "C129", "title": "Exported textures are the files the materials name", "statement": "In an exported document every texture reference of a material leads to the file the source names for that use; it is missing exactly if no file is named or the file can not be read; every file is stored once, however many materials use it.", "quantifier": "all lists of materials and all sets of readable files", "why_tests_cant": "the textures are numbered by a cache that grows while materials are converted", "anchors": ["converter/mqo2gltf.go convertMaterial", "converter/mqo2gltf.go tryAddTexture", "converter/mqo2gltf.go addTexture"]}
{"id": "C130", "title": "Exported materials have exactly the extensions that are switched on", "statement": "An exported material has each extension switched on in its source once, with exactly the numbers, colors and textures set there, and no other; it is unlit exactly if that was forced, its shader is the constant one, or its glTF shader says so or has metallic 0 and roughness 1.", "quantifier": "all materials and options", "why_tests_cant": "six extensions with 18 entries, each of them optional", "anchors": ["converter/mqo2gltf.go convertMaterial"]}
{"id": "C131", "title": "Setting an alpha mode sets the alpha mode", "statement": "A material whose glTF alpha mode was set is exported with that mode, and is otherwise exported as before.", "quantifier": "all materials and modes", "why_tests_cant": "setting the mode can replace the shader of the material", "anchors": ["mqo/mqo.go SetGltfAlphaMode", "converter/mqo2gltf.go convertMaterial", "cmd/modelconv/main.go -alpha"]}
{"id": "C132", "title": "Materials in mask mode hide transparent parts", "statement": "A material that is exported in mask mode has the cutoff of its source, or a cutoff that hides fully transparent parts.", "quantifier": "all materials", "why_tests_cant": "parameters are found by spelling; a missing one reads as 0", "anchors": ["converter/mqo2gltf.go convertMaterial", "converter/gltf2mqo.go convertMaterial", "mqo/mqo.go SetGltfAlphaMode"]}
{"id": "C133", "title": "glTF materials survive the way over MQO", "statement": "A material of a glTF file that is converted to MQO and exported as glTF again keeps name, color, metallic and roughness factors, sides, emission, alpha mode and base texture.", "quantifier": "all materials", "why_tests_cant": "values go through a table of untyped parameters in which a value of another type reads as 0", "anchors": ["converter/gltf2mqo.go convertMaterial", "converter/mqo2gltf.go convertMaterial"]}
{"id": "C134", "title": "Only unlit glTF materials become unlit", "statement": "A material of a glTF file that is converted to MQO and exported as glTF again is unlit exactly if it was, when nothing is forced.", "quantifier": "all materials", "why_tests_cant": "the decision is made from two numbers", "anchors": ["converter/gltf2mqo.go convertMaterial", "converter/mqo2gltf.go convertMaterial"]}
{"id": "C135", "title": "Faces of converted FBX documents have the materials of the document", "statement": "Converting an FBX document into a document that already has materials gives each face the material its polygon names in its model, at its place behind the materials that were there before.", "quantifier": "all documents, models and numbers of materials", "why_tests_cant": "three tables of indexes are chained: polygon, model, document", "anchors": ["converter/fbx2mqo.go convertModel", "converter/fbx2mqo.go convert", "converter/fbx2mqo.go convertGeometry"]}
{"id": "C136", "title": "Materials given by a Unity scene are taken in order of first use", "statement": "When a mesh of an FBX file is placed in a Unity scene, the k-th material of the scene goes to the polygons with the material number that the mesh uses as its k-th new one.", "quantifier": "all material numbers of polygons in any order, all material lists", "why_tests_cant": "only orders of first use that differ from the numeric order show a difference", "anchors": ["converter/fbx2mqo.go convertModel", "converter/unity2mqo.go importMesh"]}
{"id": "C137", "title": "FBX meshes stand where the Unity scene puts them", "statement": "When a mesh of an FBX file is placed in a Unity scene, its vertices are those of the mesh in the axes of the program, relative to its scaling pivot, moved by the transform of the scene, whatever the FBX document says about the place of the model.", "quantifier": "all meshes, pivots, axes and transforms", "why_tests_cant": "products of several matrices of which each may be trivial in a sample", "anchors": ["converter/fbx2mqo.go convertModel", "converter/unity2mqo.go importMesh"]}
{"id": "C138", "title": "The tree of a Unity scene becomes the tree of the document", "statement": "Converting a Unity scene gives one object for each game object reached from a root, with the depth of the game object; the object of the parent comes before, with nothing less deep between, so the parent in the document is the parent in the scene; children keep their order; objects of imported meshes lie below the object of their game object; ids count the objects from 1; names are those of the game objects with the name of the mesh in brackets.", "quantifier": "all scenes, at any depth, with any mixture of built-in and imported meshes", "why_tests_cant": "parents are given by position in one flat list and imported meshes insert any number of objects", "anchors": ["converter/unity2mqo.go Convert", "converter/unity2mqo.go convertObject", "converter/unity2mqo.go importMesh", "unity/unity_components.go GetChildren"]}
{"id": "C139", "title": "Objects of a Unity scene are visible as in the scene", "statement": "After converting a Unity scene, an object without mesh is visible if its game object and all above it are active, and a mesh is visible if also its renderer is switched on.", "quantifier": "all scenes, all combinations of active flags and renderers", "why_tests_cant": "flags are inherited along paths of any length", "anchors": ["converter/unity2mqo.go convertObject"]}
{"id": "C140", "title": "Materials of a Unity scene are converted once and referred to by all meshes", "statement": "Every material of a renderer is one material of the document, with name, colours and textures of its file; different files are different materials; faces of a built-in mesh have the first material of the renderer, polygons of an imported mesh the materials of the renderer in the order of first use; all places are within the list.", "quantifier": "all scenes, all material lists", "why_tests_cant": "the places depend on all meshes converted before", "anchors": ["converter/unity2mqo.go convertObject", "converter/unity2mqo.go importMesh", "converter/unity2mqo.go saveTexrure"]}
{"id": "C141", "title": "Texture tiling of Unity materials is applied to the texture coordinates", "statement": "After converting a Unity scene the texture coordinates of a built-in mesh are those of the mesh times the tiling of the main texture of its material.", "quantifier": "all scenes, all built-in meshes, all tilings", "why_tests_cant": "faces that share a list of coordinates show only with tilings other than 1", "anchors": ["converter/unity2mqo.go convertObject", "unity/unity_builtin.go"]}
{"id": "C142", "title": "Meshes stand where the Unity scene shows them", "statement": "After converting a Unity scene each vertex of a mesh, built-in or imported, is the point the transforms of the game object and all above it give in Unity, in the units of the document and mirrored to its handedness.", "quantifier": "all scenes, positions, rotations and scales at any depth", "why_tests_cant": "handedness and order of products are invisible for scenes with few or plain transforms", "anchors": ["converter/unity2mqo.go convertObject", "converter/unity2mqo.go importMesh", "unity/unity_components.go GetMatrix"]}
{"id": "C143", "title": "Colliders of a Unity scene become bodies of the objects", "statement": "With physics switched on there is one body for each game object with a collider, bound to its object, with the mass, damping and kind of its rigid body (fixed without one), and a shape for each collider at the place, turn and size the collider has in Unity; with physics switched off there is none.", "quantifier": "all scenes, all sets of colliders", "why_tests_cant": "most colliders in samples are centred and scaled evenly", "anchors": ["converter/unity2mqo.go convertRigidBody"]}
{"id": "C144", "title": "Lights of a Unity scene are kept at their objects", "statement": "After converting a Unity scene the lights of the document are exactly those of the game objects with a transform, each at the object of its game object, in order.", "quantifier": "all scenes", "why_tests_cant": "places of objects shift with every imported mesh", "anchors": ["converter/unity2mqo.go convertObject"]}
{"id": "C145", "title": "Saved textures of different assets have different file names", "statement": "Two textures saved by the conversion of a Unity scene have the same file name only if they are the same asset, whatever the names of the assets; the files are directly in the folder for saved textures.", "quantifier": "all GUIDs without underscore and slash, all asset paths", "why_tests_cant": "names with any characters", "anchors": ["converter/unity2mqo.go saveTexrure"]}
{"id": "C146", "title": "The bones of all imported meshes of a Unity scene are kept", "statement": "After converting a Unity scene with several skinned meshes from FBX files, the document has the bones and weights of each of them.", "quantifier": "all scenes with two or more skinned meshes", "why_tests_cant": "needs scenes with several imported skins", "anchors": ["converter/unity2mqo.go importMesh", "converter/fbx2mqo.go convert"]}
{"id": "C147", "title": "Each instance of a Unity prefab shows the prefab with its own modifications", "statement": "After loading a Unity scene, every instance of a prefab, also inside of other prefabs, has exactly the elements of the prefab; each name, flag, position, rotation, scale, material, mesh, and each value of a light, rigid body or collider is that of the last modification of this instance that names it, or else that of the prefab; two instances share no element.", "quantifier": "all scenes, prefabs, nestings and lists of modifications", "why_tests_cant": "a modification that leaks into another instance or a nested one shows only with many instances", "anchors": ["unity/unity_scene.go LoadSceneAsset 36-225", "unity/unity.go GetElement 20-34", "unity/unity.go PrefabInstance 117-131"]}
{"id": "C148", "title": "The roots of a Unity scene are the objects without a parent", "statement": "After loading a Unity scene its list of objects has exactly the game objects of the file that are not placeholders and whose transform has no father, and the root objects of the instances without a parent, in the order of the file and each once.", "quantifier": "all scenes and prefabs", "why_tests_cant": "roots come from the file and from prefabs loaded in between", "anchors": ["unity/unity_scene.go LoadSceneAsset 101-114, 207-213", "unity/unity.go GetTransform 108-115"]}
{"id": "C149", "title": "Children of a Unity transform are the listed ones and the instances put under it", "statement": "After loading a Unity scene the children of a transform are the transforms its file lists, in that order, followed by the roots of the instances whose parent it is, each once; an instance whose parent is an object of another instance is a child of that object.", "quantifier": "all scenes and prefabs whose roots are objects of their own file", "why_tests_cant": "needs scenes with placeholders of objects of instances", "anchors": ["unity/unity_components.go GetChildren 83-95", "unity/unity_components.go AddChild 97-108", "unity/unity_scene.go LoadSceneAsset 215-223", "unity/unity.go GetTransform 41-52"]}
{"id": "C150", "title": "The parent of a Unity transform is the transform that has it as a child", "statement": "After loading a Unity scene, the parent of a transform is the one whose children it is among.", "quantifier": "all scenes", "why_tests_cant": "parents and children are found in two ways", "anchors": ["unity/unity_components.go GetParent 110-114", "unity/unity_components.go GetWorldMatrix 75-81", "unity/unity_components.go GetChildren 83-95"]}
{"id": "C151", "title": "No object of a Unity scene is lost", "statement": "After loading a Unity scene each object of the file and each instance is a root or a child of another object.", "quantifier": "all scenes", "why_tests_cant": "the ways of nesting in Unity are many: objects added to instances, variants of prefabs", "anchors": ["unity/unity_scene.go LoadSceneAsset 101-114, 207-223", "unity/unity_components.go GetChildren 83-95"]}
{"id": "C152", "title": "Loading a Unity scene ends", "statement": "Loading a Unity scene returns a scene whatever the prefabs in it.", "quantifier": "all files", "why_tests_cant": "a prefab that contains itself through others", "anchors": ["unity/unity_scene.go LoadSceneAsset 36-225"]}
{"id": "C153", "title": "Objects that share geometry look the same in the glTF file", "statement": "With the option to reuse geometry, an object whose geometry was exported before shows in the glTF file at the same places, with the same triangles, materials and texture coordinates as without the option.", "quantifier": "all documents, objects, places and scales", "why_tests_cant": "needs many objects with equal geometry and different places, scales and material settings", "anchors": ["converter/mqo2gltf.go Convert 808-873", "converter/mqo2gltf.go ConvertObject 664-737", "converter/mqo2gltf.go geomCache 138-143"]}
{"id": "C154", "title": "Exporting lights keeps meshes in place", "statement": "With the option to export lights, lights are at the places of their objects and the meshes are where they are without it.", "quantifier": "all documents with lights", "why_tests_cant": "meshes at objects that also have a light are rare", "anchors": ["converter/mqo2gltf.go Convert 808-873"]}
{"id": "C155", "title": "The T-pose option makes the bones horizontal", "statement": "With -autotpose, after the conversion the farthest child of every bone that matches is at the height of the bone, on the side it was before and as far away; no bone gets longer or shorter and the tree stays.", "quantifier": "all skeletons, patterns and poses, with real numbers", "why_tests_cant": "the adjustments of a bone turn all bones below it, so that several matches interact", "anchors": ["cmd/modelconv/main.go 293-301", "mqo/bone_plugin.go BoneAdjustX 319-349", "mqo/bone_plugin.go BoneTransform 245-317"]}
{"id": "C156", "title": "Scaling a document scales all of it", "statement": "Scaling (or turning by a half) a document moves every vertex, bone, frame, physics shape and joint to the place the matrix gives; a shape covers a point of the transformed document exactly if it covered that point before.", "quantifier": "all documents and all factors, with real numbers", "why_tests_cant": "physics and frames of objects are rarely looked at after scaling", "anchors": ["mqo/utils.go Document.ApplyTransform 30-41", "mqo/physics_plugin.go ApplyTransform 93-102", "mqo/bone_plugin.go ApplyTransform 239-243", "mqo/mqo.go SetLocalTransform 301-306", "cmd/modelconv/main.go 255-263"]}
{"id": "C157", "title": "The options for materials have the effect they name in the glTF file", "statement": "With -alpha a matching material is exported opaque, with a mask, blended, with the given alpha, or not at all; with -hidemat it is not exported; with -unlit it is exported unlit with its color and alpha mode; other materials are not changed.", "quantifier": "all lists of materials, rules and shaders", "why_tests_cant": "options and shaders combine in many ways", "anchors": ["cmd/modelconv/main.go 316-324, 341-380", "mqo/mqo.go SetGltfAlphaMode 160-165", "converter/mqo2gltf.go convertMaterial 434-583"]}
{"id": "C158", "title": "Transparent textures are found", "statement": "With the option to detect transparency, a material is treated as transparent exactly if some texel that its faces show is not opaque.", "quantifier": "all images, UVs, materials and faces", "why_tests_cant": "depends on pixels and UVs together; tests have a few pictures with plain UVs", "anchors": ["converter/mqo2gltf.go hasAlpha 300-329", "converter/mqo2gltf.go uvrect 71-96", "converter/mqo2gltf.go ConvertObject 606-663"]}
{"id": "C159", "title": "Textures respect the resolution limit", "statement": "With a limit for the resolution every exported texture has at most that size, and its sides keep their ratio.", "quantifier": "all sizes, scales and limits", "why_tests_cant": "a limit matters only for some combination of size, scale, file type and options", "anchors": ["converter/mqo2gltf.go scaleTexture 331-361", "converter/mqo2gltf.go addTexture 363-421"]}
{"id": "C160", "title": "Exported images have the type they say", "statement": "Every image of an exported glTF file has data of the type it says; every readable texture of a material is exported.", "quantifier": "all file types, names, sizes and options", "why_tests_cant": "file type, options and size decide together what is copied and what is encoded", "anchors": ["converter/mqo2gltf.go addTexture 363-421", "converter/mqo2gltf.go tryAddTexture 422-432"]}
{"id": "C161", "title": "Rigid bodies become collision shapes of their bones", "statement": "In an exported glTF file with physics, the node of a bone has exactly the shapes of the bodies attached to the bone, at their places, with their type, size, turn and groups; masses add up, and it is fixed if one of the bodies is.", "quantifier": "all bones and bodies, any number of bodies per bone", "why_tests_cant": "needs models with several bodies per bone; the extension is not looked at by tests", "anchors": ["converter/mqo2gltf.go addPhysicsBody 931-965", "converter/mqo2gltf.go Convert 794-804, 891-898"]}
{"id": "C162", "title": "Fixed bodies become colliders of VRM", "statement": "In an exported VRM file every fixed body is a collider of its bone, of its shape and at its place, and the spring bones made from physics collide with them.", "quantifier": "all models with physics", "why_tests_cant": "needs models with physics, and a VRM viewer to see the effect", "anchors": ["converter/vrmconfig.go ConvertColliders 446-477", "converter/vrmconfig.go ApplyConfig 208-248", "converter/vrmconfig.go DetectSpringBones 415-444", "converter/vrmconfig.go ApplyVRMConfig 479-493"]}
{"id": "C163", "title": "Materials survive the conversion between MMD and MQO", "statement": "Converting a model from MMD to MQO or from MQO to MMD keeps number and order of the materials, and for each its name, color, power, texture file, sides and edge.", "quantifier": "all lists of materials and textures", "why_tests_cant": "tests convert a few materials with textures in the usual order", "anchors": ["converter/mmd2mqo.go convertMaterial 29-50", "converter/mqo2mmd.go Convert 117-122", "converter/mqo2mmd.go convertMaterial 165-174"]}
{"id": "C164", "title": "Material morphs of MMD have their effect after conversion", "statement": "Applying a material morph of a converted MMD model with a weight changes the colors of exactly the materials the morph names, by addition or multiplication, as MMD does.", "quantifier": "all lists of materials, morphs and weights", "why_tests_cant": "the effect goes through names of materials, made by one function and taken apart by another", "anchors": ["converter/mmd2mqo.go Convert 335-353", "mqo/morph_plugin.go ApplyMaterialMorph 62-78"]}
{"id": "C165", "title": "Materials of FBX files are converted", "statement": "Converting an FBX file keeps the name, colors, factors, opacity and the color texture of every material; values a material does not have are those of the template of the file.", "quantifier": "all property lists, templates and connections", "why_tests_cant": "depends on which properties are in the material and which in the template, and on the order of connections", "anchors": ["converter/fbx2mqo.go convertMaterial 90-106", "fbx/fbx_material.go 19-41", "fbx/fbx_object.go GetProperty 58-75", "fbx/fbx_object.go FindRefs 114-122", "fbx/fbx_object.go Name 52-54"]}
{"id": "C166", "title": "A binary glTF file is complete", "statement": "When a glTF file is saved as a single file, every external image whose file exists beside the source is embedded with the content of that file and its type, whatever directory the source is in; all other images stay as they are. When it is saved as several files, the buffers get files of different names.", "quantifier": "all lists of images, file systems, directories of the source and of the program", "why_tests_cant": "tests run in one directory with sources in one place", "anchors": ["gltfutil/gltf_utils.go ToSingleFile 49-79", "cmd/modelconv/main.go saveGltfDocument 77-115"]}
{"id": "C167", "title": "Paths into Unity projects name the scene and its textures", "statement": "A path to a scene or prefab in the directory Assets of a project, wherever the project is, loads exactly this scene, and its textures are looked for in the same project. A path of a scene that does not exist is an error; without a path the only scene is loaded.", "quantifier": "all project directories, paths and lists of assets", "why_tests_cant": "the path is split by searching text in it; tests use one project in one place", "anchors": ["cmd/modelconv/utils.go loadDocument 58-82", "cmd/modelconv/main.go 382-390", "unity/unity_assets.go scanAssets 270-302", "unity/unity_scene.go LoadScene 13-34"]}
{"id": "C168", "title": "The morph option applies the given morphs with their weights", "statement": "With the option for morphs, every vertex b of the base of a morph list moves to b plus the sum of w times (t - b) over the rules, where t is the vertex of the target in its shape before; the order of the rules does not matter, all other objects stay as they are, and nothing but vertices and colors changes.", "quantifier": "all documents whose morph lists fit their objects, all lists of rules", "why_tests_cant": "morphs are applied one after the other to objects that move along; tests apply one morph", "anchors": ["cmd/modelconv/main.go 326-339", "mqo/morph_plugin.go Apply 50-60", "mqo/morph_plugin.go MorphTargetList.Apply 80-108", "mqo/morph_plugin.go ApplyMaterialMorph 62-78"]}
{"id": "C169", "title": "The assets of a package are found by path and GUID", "statement": "When a package is opened, every directory of the archive that has a path is an asset with this path; looking it up by GUID gives it, and opening its path gives the content that the archive has for it (that of the last entry). Other paths cannot be opened. The material of a file is its first readable document of that kind.", "quantifier": "all archives, contents and paths", "why_tests_cant": "archives come from several programs, in different orders and with different contents of the path file; tests use one directory", "anchors": ["unity/unity_assets.go OpenPackage 60-77", "unity/unity_assets.go scanPackage 139-182", "unity/unity_assets.go extractPackage 184-232", "unity/unity_assets.go GetAsset 84-90", "unity/unity_assets.go Open 112-118", "unity/unity_material.go LoadMaterial 73-101"]}
{"id": "C170", "title": "A saved Metasequoia document is complete when it is loaded", "statement": "A document saved as .mqo or .mqoz and loaded again has the same objects, materials and scene, all bones with their positions, settings, IK and weights, and all morphs. For .mqo, names that occur twice are made unique.", "quantifier": "all documents whose numbers are finite and in range, all paths", "why_tests_cant": "plugins go through a second file in XML with optional attributes; tests load sample files and save without comparing", "anchors": ["mqo/mqo_writer.go Save 269-280", "mqo/mqo_writer.go SaveMQOZ 246-267", "mqo/mqo_writer.go 42-47", "mqo/mqx_writer.go WriteMQX 15-25", "mqo/mqx_parser.go ReadMQX 8-26", "mqo/mqo_parser.go LoadMQOZ 401-427", "mqo/mqo_parser.go Load 429-440", "mqo/bone_plugin.go 12-20", "mqo/bone_plugin.go 117-183", "mqo/morph_plugin.go 8-42"]}
{"id": "C171", "title": "A glTF document is imported with all its meshes and skeletons", "statement": "Every node with a mesh becomes an object named like the mesh, in the order of the nodes, with its geometry where the node places it. The joints below the skeleton roots of the skins become bones: every root once, numbered from 1, with the children of a node as the children of its bone and the position relative to the parent added up.", "quantifier": "all glTF documents whose import ends", "why_tests_cant": "samples have one skin and nodes without placement; tests do not compare positions", "anchors": ["converter/gltf2mqo.go Convert 127-153", "converter/gltf2mqo.go convertBones 107-125", "converter/gltf2mqo.go convertMesh 56-105"]}
{"id": "C172", "title": "The command writes the format that is asked for and uses all inputs", "statement": "A conversion is possible from every readable type to glTF, GLB, VRM, MQO, MQOZ and PMX, and from FBX to FBX, and every other one is refused. The file that is written is of the type that its name says, and all animations among the inputs are in it, in the order in which they are given.", "quantifier": "all input and output paths, all lists of inputs", "why_tests_cant": "dispatch is in main and not called by any test", "anchors": ["cmd/modelconv/main.go saveGltfDocument 77-115", "cmd/modelconv/main.go saveDocument 117-152", "cmd/modelconv/main.go 167-183", "cmd/modelconv/main.go 223-252", "cmd/modelconv/utils.go loadDocument 29-95", "mqo/mqo_writer.go Save 269-280"]}
{"id": "C173", "title": "Conversions keep the size of a model", "statement": "With default options a length in meters is the same in the output as in the input: 1 unit of MMD is 8 cm, of Metasequoia 1 mm, of glTF and Unity 1 m.", "quantifier": "all pairs of supported formats", "why_tests_cant": "factors are spread over the command and the converters; tests check converters alone", "anchors": ["cmd/modelconv/main.go 203-221", "cmd/modelconv/main.go 223-252", "converter/mqo2gltf.go 149-151", "converter/mqo2mmd.go 15", "converter/unity2mqo.go 46-48"]}
{"id": "C174", "title": "The characters of a Metasequoia document are read as they were written", "statement": "The bytes of a written document give the same document when they are read, with names in any language. A document counts as UTF-8 exactly if it declares this code page at its beginning; otherwise it is decoded as Shift_JIS and its backslashes become slashes, nothing else.", "quantifier": "all documents, all bytes, all sizes of the first read", "why_tests_cant": "samples have ASCII names and are read from files; readers may return less than was asked for", "anchors": ["mqo/mqo_parser.go detectCodePage 330-337", "mqo/mqo_parser.go 43-56", "mqo/mqo_parser.go Parse 339-341", "mqo/mqo_writer.go 37-40"]}
{"id": "C175", "title": "The extensions of an exported document are listed", "statement": "An exported glTF or VRM document lists every extension that one of its parts has, once. The light of a node is the one of its object. Settings for materials in a VRM configuration apply to the materials of that name, or else the setting for all, and change what they say only.", "quantifier": "all exported documents and all documents that are already correct, all configurations, all orders of maps", "why_tests_cant": "validators look at single files; lists come from maps", "anchors": ["converter/mqo2gltf.go 461-467", "converter/mqo2gltf.go 852-860", "converter/mqo2gltf.go 901-922", "gltfutil/gltf_utils.go RemoveExtension 21-47", "vrm/vrm_extension.go 27-49", "converter/vrmconfig.go 179-206", "converter/vrmconfig.go 304-311", "converter/vrmconfig.go ApplyVRMConfig 479-493"]}
{"id": "C176", "title": "The objects and connections of an FBX document are as the file says", "statement": "A loaded FBX document has the objects that the file lists, each with its own id. What an object refers to are the objects connected to it, in the order of the connections; connections of unknown objects count for nothing. The parent of a model is the model or the scene that the last connection of the model names, and the children of a model are the models connected to it. This stays so when the document is written as text and loaded again.", "quantifier": "all trees of nodes with distinct ids of objects, all lists of connections, all versions other than 6100", "why_tests_cant": "sample files have few connections, no repeated ones and none to unknown objects", "anchors": ["fbx/fbx_document.go BuildDocument 65-141", "fbx/fbx_object.go ID 49-51", "fbx/fbx_object.go FindRefs 114-122", "fbx/fbx_model.go 81-89"]}
{"id": "C177", "title": "Models of FBX 6100 documents are under the scene", "statement": "In an FBX 6100 document, where objects are named instead of numbered, the models connected to the scene are the children of the scene, whatever the form of the file.", "quantifier": "all trees of nodes of version 6100", "why_tests_cant": "there is no sample of this version", "anchors": ["fbx/fbx_document.go BuildDocument 65-141", "fbx/fbx_document.go 20-24"]}
{"id": "C178", "title": "Objects and connections added to an FBX document are there when it is saved and loaded", "statement": "After any sequence of additions of objects and connections to a document, the document in memory is what saving and loading it gives: the same objects with the same ids, the same references, the same parents and the same materials. Added objects get ids that no other object has.", "quantifier": "all documents, all sequences of additions", "why_tests_cant": "tests add one object of each kind and look at the object in memory only", "anchors": ["fbx/fbx_document.go NewDocument 20-55", "fbx/fbx_document.go newID 57-63", "fbx/fbx_document.go AddObject 143-155", "fbx/fbx_document.go AddConnection 157-161", "fbx/fbx_document.go AddPropConnection 163-167"]}
{"id": "C179", "title": "An FBX file is converted to the objects that its nodes and connections describe", "statement": "Loading an FBX file and converting it adds one object for each model that the connections of the file put under the scene and that has a mesh at or below it and is no bone, and for what is below such a model, with the name of the model. The object of a model follows that of the model it is connected to and is one deeper. Its mesh is that of the first geometry connected to the model: one vertex for each vertex of the file and one face for each polygon with its corners in reverse order. Models without geometry have no faces.", "quantifier": "all trees of nodes with distinct ids of objects and a version other than 6100, all options without a target model", "why_tests_cant": "the sample files have one or two models; the order of connections and unknown ids are not varied", "anchors": ["fbx/fbx_document.go BuildDocument 65-141", "fbx/fbx_model.go GetGeometry 102-109", "fbx/fbx_geometry.go Init 59-74", "converter/fbx2mqo.go convert 63-88", "converter/fbx2mqo.go convertModel 108-174"]}
{"id": "C180", "title": "The meshes of an FBX file stand where its connections put them", "statement": "In an FBX file whose models form a tree, each converted model has exactly one object, and each vertex of its mesh is the vertex of the file moved by the product of the matrices of the models from the top down to it and then turned by the axes of the file.", "quantifier": "all trees of nodes with distinct ids and models that form a tree, all options without a target model", "why_tests_cant": "nested models with translations, rotations and scales and other axes at the same time are not in the samples", "anchors": ["fbx/fbx_document.go BuildDocument 65-141", "fbx/fbx_document.go CoordMatrix 169-181", "fbx/fbx_model.go UpdateMatrix 54-65", "fbx/fbx_model.go GetWorldMatrix 74-79", "converter/fbx2mqo.go convertModel 108-174"]}
{"id": "C181", "title": "An FBX document saved as text, loaded and converted gives the objects that the document describes", "statement": "Saving an FBX document as text, loading the text and converting it gives one object for each model of the document that the connections put under the scene and that has a mesh at or below it and is no bone, and for what is below such a model. Each has the name that its model has in the document, its vertices are those of the geometry of the document moved by the matrices of its models and turned by the axes of the document, and its faces are the polygons of that geometry.", "quantifier": "all documents with strings that text can carry, finite numbers, distinct ids, models that form a tree and a version other than 6100; all options without a target model", "why_tests_cant": "tests save or convert, never save, load and convert; how numbers are printed and read again is not varied", "anchors": ["fbx/fbx.go Save", "fbx/fbx_node.go Dump", "fbx/text_parser.go", "fbx/fbx_document.go BuildDocument 65-141", "fbx/fbx_node.go 263-268", "converter/fbx2mqo.go convert 63-88", "converter/fbx2mqo.go convertModel 108-174"]}
{"id": "C182", "title": "MQO texts of other programs are read as what they say, and unknown parts are passed over", "statement": "A text made of a scene, material lists, second parts of materials (MaterialEx2), objects, a thumbnail, the name of a plugin file and other words and blocks, with \"\\n\" or \"\\r\\n\" at the ends of lines, is loaded without an error as the document it describes: the objects and materials of the text in its order, the last scene, and for each material the last second part with its number behind it, with shader, parameters and mappings. Attributes of materials and faces, entries of objects, scenes, second parts and vertex attributes, thumbnails with any hexadecimal digits, and words and blocks of the file that the loader does not know change nothing, and neither does anything behind the word Eof or a missing Eof.", "quantifier": "all such texts: any number and order of known and unknown parts, any literals for numbers, any nesting of unknown blocks in objects and scenes; both line ends", "why_tests_cant": "tests load files saved by two programs; unknown attributes, entries and blocks, numbers in other forms, and other line ends are not varied", "anchors": ["mqo/mqo_parser.go procAttrs 105-125", "mqo/mqo_parser.go skipBlock 127-140", "mqo/mqo_parser.go procObj 152-165", "mqo/mqo_parser.go readMaterial 167-186", "mqo/mqo_parser.go readMaterialEx 188-246", "mqo/mqo_parser.go readObject 248-328", "mqo/mqo_parser.go Parse 339-399"]}
{"id": "C183", "title": "The order of attributes and entries in an MQO text does not matter", "statement": "Changing the order of the attributes of a material or a face, or of the entries of an object or a scene, does not change the loaded document, as long as no name occurs twice and vertex attributes stay behind the vertices.", "quantifier": "all texts of C182 and all permutations", "why_tests_cant": "a test would need the same file in many orders; the loader reads what it meets one after the other", "anchors": ["mqo/mqo_parser.go procAttrs 105-125", "mqo/mqo_parser.go procObj 152-165", "mqo/mqo_parser.go readMaterial 167-186", "mqo/mqo_parser.go readObject 248-328"]}
{"id": "C184", "title": "Unknown blocks of an MQO file are passed over whatever is in them", "statement": "A block of an MQO file with a name that the loader does not know changes nothing, whatever is in it.", "quantifier": "all blocks and all files", "why_tests_cant": "a test would have to guess which contents matter", "anchors": ["mqo/mqo_parser.go Parse 339-399"]}
{"id": "C185", "title": "The glTF export shows exactly the visible shape of the document", "statement": "A document whose objects have proper faces and whose morphs name existing objects is exported without a panic. Its nodes are the objects that are not morph targets, in their order; with the hierarchy ignored only visible ones with faces. Hidden objects have no mesh. The primitives of a visible object are the materials of its faces with at least three corners, without ignored materials, and their numbers lead to the exported materials with these numbers in the document. The exported materials are those of the faces of visible objects that are not morph targets, in order. The morph targets of the mesh are the objects named by the last list of the object that have as many vertices, in order, and their offsets lead to them.", "quantifier": "all documents, options for hierarchy and morphs, and numbers of objects, faces, materials and morphs", "why_tests_cant": "usage, ignored names, visibility and morphs are looked at in three passes over maps; a test has one combination", "anchors": ["converter/mqo2gltf.go Convert 745-929", "converter/mqo2gltf.go checkMaterials 739-743", "converter/mqo2gltf.go ConvertObject 585-737"]}
{"id": "C186", "title": "The glTF export loses no object and has no needless material", "statement": "Every visible object with faces is a node or a morph target of a mesh, a morph with a missing target does no harm, and every exported material is used by a primitive.", "quantifier": "all documents with bones, morphs and materials", "why_tests_cant": "the losses need unusual combinations of morph lists that no test has", "anchors": ["converter/mqo2gltf.go Convert 745-784, 819-831"]}
{"id": "C187", "title": "A VMD file becomes the animation of the model", "statement": "A VMD file of the prescribed form is read and added to a glTF model as one animation with the name of the motion (none, if it would have no channel). For each bone of the model the rotation and translation channels have exactly the keys of the file with the name of the bone, in the order of time, each with its own time and value. For each mesh whose animated morphs have common key times there is one channel with the weights of all its morphs, zero for morphs without keys. There are no other channels, no node has two channels of one kind, all channels lead to existing data and data already there stays.", "quantifier": "all VMD files, models, orders of keys in the file, orders of equal frames after sorting and orders in which maps are visited", "why_tests_cant": "keys of different bones are mixed in the file, sorted unstably, grouped by maps that are visited in random order, and key times are shared between channels", "anchors": ["mmd/vmd_parser.go Parse 111-143, GetBoneChannels 72-87, GetMorphChannels 89-103", "converter/glbanim.go AddAnimationTpGlb 253-262, addBoneChannels 35-182, addMorphChannels 184-251", "cmd/modelconv/utils.go loadAnimation 18-27"]}
{"id": "C188", "title": "Motion between the keys follows the curves of the VMD file", "statement": "Two VMD files that differ in the interpolation curves of their keys give different animations.", "quantifier": "all VMD files", "why_tests_cant": "a test looks at the keys, not between them", "anchors": ["converter/glbanim.go addBoneChannels 121-125, 160-164", "mmd/vmd_parser.go GetBoneChannels 72-87"]}
{"id": "C189", "title": "A morph that several meshes have is animated on all of them", "statement": "If two meshes of the glTF model have a morph target with the same name, a VMD motion with that morph animates both.", "quantifier": "all models and motions", "why_tests_cant": "a test model has one mesh with morphs", "anchors": ["converter/glbanim.go addMorphChannels 184-209"]}
{"id": "C190", "title": "A Unity scene file is converted to the objects of its game objects", "statement": "A Unity scene file describes trees of game objects. The roots are the game objects without father and the roots of the prefab instances without parent, in the order of the file. The children of a game object are those its transform lists, in that order (placeholders stand for the root of an instance), and then the instances put under it that are not listed. The game objects of an instance are those of its prefab with the modifications of that instance, at any depth of nesting. If the scene is loaded and converted, the MQO document has for each of these game objects, parents before children, exactly one object with its depth, pose, mesh, visibility and light placement, followed by the objects imported for it from an FBX file, and nothing else. Its lights are those of the game objects, each bound to the object of its game object; with ConvertPhysics it has one body for each game object with a collider; the faces of built-in meshes have the first material of their renderer.", "quantifier": "all scene files, prefabs, nestings, modifications and orders of maps", "why_tests_cant": "the loader resolves instances, placeholders and roots over several files and the converter walks the result; a test scene fixes one nesting", "anchors": ["unity/unity_scene.go LoadSceneAsset 36-225", "unity/unity.go GetElement 20-34, GetTransform 41-53, GetComponent 85-95, GetComponents 97-106, PrefabInstance 117-131", "unity/unity_components.go GetChildren 83-95, AddChild 97-108, GetParent 110-114", "converter/unity2mqo.go Convert 54-78, convertObject 79-218"]}
{"id": "C191", "title": "The faces of built-in solids are seen from outside", "statement": "Every face of the cube and the sphere and every face of the wall of a cylinder that a Unity scene uses has its corners clockwise when seen from outside, as MQO files have it. The plane is seen from above and the quad from its front.", "quantifier": "all numbers of segments; all faces", "why_tests_cant": "a test can check some corners of one mesh; that no face is turned around needs all rows, columns and the closing seam", "anchors": ["unity/unity_builtin.go Cube 47-72, sphereInternal 78-132, Cylinder 134-159, Quad 194-208, Plane 210-224"]}
{"id": "C192", "title": "Pictures on built-in meshes are not mirrored", "statement": "The texture coordinates of the built-in meshes of Unity are within the picture, and every face shows its part of the picture as it is, not mirrored and not squeezed to a line.", "quantifier": "all built-in meshes, numbers of segments and faces", "why_tests_cant": "a mirrored picture is a valid mesh; only a person looking at a picture with writing on it sees it", "anchors": ["unity/unity_builtin.go Cube 47-72, sphereInternal 78-132, Cylinder 134-159, Capsule 161-192, Quad 194-208, Plane 210-224"]}
{"id": "C193", "title": "Bones, weights and shapes of an FBX file", "statement": "Converting an FBX file gives one bone for each model that a cluster of a converted mesh is connected to and for each model above such a one, numbered from 1, with the name of the model, the bone of the model above as its parent, at the bind position of a cluster or else where the model stands. Each bone has exactly the weights that the clusters of the file give for the vertices of the mesh. Behind the object of a mesh come one object per shape of the file, with its vertices moved as the file says and placed like the mesh, and a list of morph targets names them.", "quantifier": "all FBX trees not of version 6100 with distinct ids whose models form a tree, all options without a model name and with depth 0", "why_tests_cant": "needs all graphs of connections between meshes, deformers, clusters, channels, shapes and models; sample files have a few of them in one order", "anchors": ["fbx/fbx_document.go BuildDocument 65-141", "fbx/fbx_geometry.go GetDeformers 80-90, GetShapes 92-100, GeometryShape 189-210, Deformer 212-258", "converter/fbx2mqo.go convertGeometry 188-285, convertDeformer 287-327, convertShape 329-348"]}
{"id": "C194", "title": "Which config is used for a VRM file", "statement": "When a file is saved as VRM, the config named on the command line is used; without one the file beside the input with the ending .vrmconfig.json, if it exists; without that the preset mmd for PMX and PMD inputs; otherwise none. A name with a dot or a slash is a file. Any other name is a preset, and one beside the program is used before the embedded one. A config that cannot be read is reported as an error.", "quantifier": "all command lines, names, file systems and contents", "why_tests_cant": "needs all combinations of options, names and files that exist", "anchors": ["cmd/modelconv/main.go 91-113, 185-200", "converter/vrmconfig.go LoadVRMConfig 69-95"]}
{"id": "C195", "title": "Saving a VRM file as VRM", "statement": "Saving a VRM file as VRM without config keeps what the file says about the character: title, author and license, humanoid bones, first person bone, expressions, spring bones, colliders and properties of materials.", "quantifier": "all VRM documents", "why_tests_cant": "needs all documents with an extension; there is no test that saves one twice", "anchors": ["cmd/modelconv/main.go 91-113", "converter/vrmconfig.go ApplyConfig 299-373, ApplyVRMConfig 479-493"]}
{"id": "C196", "title": "A config comes before its preset", "statement": "When a config names a preset, the title, author and license are those of the config; a bone that the config gives to a node has that node; a material for which the config has a setting, by name or for all materials, follows that setting. The preset can only add bone mappings, expressions, springs, colliders and material settings. If the preset cannot be loaded, an error is returned.", "quantifier": "all configs, presets and documents, all orders of iteration over maps", "why_tests_cant": "needs all pairs of configs and presets and all orders of a Go map", "anchors": ["converter/vrmconfig.go MergePreset 97-107, applyConfigInternal 142-297, ApplyConfig 299-373"]}
{"id": "C197", "title": "Saving as VRM ends with a file", "statement": "Saving a document as VRM ends, never crashes, and writes a document with the VRM extension; the only error is a preset that cannot be loaded.", "quantifier": "all configs, presets and documents whose nodes form a forest, all options", "why_tests_cant": "needs all configs and documents; crashes depend on both", "anchors": ["cmd/modelconv/main.go 91-113", "converter/vrmconfig.go 97-493"]}
{"id": "C198", "title": "Springs of a VRM file", "statement": "Saving as VRM writes the spring bones of the document, then one group for each setting of the config, for the one made from physics and for each setting of the preset, in this order, with the bones listed by number and the nodes its names match. No two nodes taken for names overlap, none has a mesh, and each matched node is taken unless it overlaps one that is. With physics each node where a free chain of bodies starts has a spring bone above or below it.", "quantifier": "all documents, configs, presets, patterns, options and orders of iteration over maps", "why_tests_cant": "needs all trees of nodes, all lists of patterns and all orders of a Go map", "anchors": ["converter/vrmconfig.go matchNodeName 109-121, applyConfigInternal 208-234, DetectSpringBones 415-444, ApplyVRMConfig 479-493"]}
{"id": "C199", "title": "Colliders of a VRM file", "statement": "Saving a document whose nodes have different names as VRM writes exactly the colliders of the document, those of config and preset at the nodes they name, and, with the option for physics, the spheres and capsules of each static body at its node.", "quantifier": "all documents with different node names, all configs, presets and options", "why_tests_cant": "needs all combinations of nodes, bodies and settings", "anchors": ["converter/vrmconfig.go applyConfigInternal 236-248, ConvertColliders 446-477, ApplyVRMConfig 479-493"]}
{"id": "C200", "title": "Expressions of a VRM file", "statement": "Saving as VRM writes the expressions of the document and, for every morph target that a mapping of config or preset names, an expression with the name of the mapping and none without mapping. A target that no mapping names has no expression; with the option for all morphs it has exactly one, with the name of the target.", "quantifier": "all documents, configs, presets and options for which saving ends without error", "why_tests_cant": "needs all meshes, targets and mappings", "anchors": ["converter/vrmconfig.go applyConfigInternal 250-296, ApplyConfig 332-370"]}
{"id": "C201", "title": "Skeletons from the embedded presets", "statement": "With one of the embedded presets mmd, mmd_en and mmd_ja a VRM file has each humanoid bone at most once and no node stands for two bones. The node of a bone has one of the names that the preset has for it, or the name of the bone. A bone of the preset is in the file if the document has a node for it, and if there are nodes for all required bones no bone is reported missing.", "quantifier": "all documents and options for which saving ends without error, the three presets", "why_tests_cant": "the presets have 155 entries; needs all documents with any subset of the names, in any order and with other nodes", "anchors": ["converter/vrmconfig_presets/mmd.json, mmd_en.json, mmd_ja.json", "converter/vrmconfig.go applyConfigInternal 142-177, ApplyConfig 299-373", "vrm/vrm_extension.go ValidateBones 51-57"]}
{"id": "C202", "title": "PMX models saved as VRM have a complete skeleton", "statement": "Take a PMX or PMD model whose bones have different names and existing parents, no object of which has the name of a bone. It is converted to nodes with the names of its bones. When it is saved as VRM with one of the embedded presets mmd, mmd_en and mmd_ja, and it has for each required humanoid bone a bone with one of the names of the preset, then no required bone is missing in the file. A bone whose name is the only one of those that the preset has for a humanoid bone is the node of that humanoid bone, and no node is used for two of them.", "quantifier": "all lists of bones, objects, physics bodies and options for which saving ends without error", "why_tests_cant": "the result depends on three conversions in a row; needs all skeletons with any of the names in any order", "anchors": ["converter/mmd2mqo.go convertBones 52-77", "converter/mqo2gltf.go addBoneNodes 179-208, Convert 785-807", "converter/vrmconfig.go applyConfigInternal 142-177", "vrm/vrm_extension.go ValidateBones 51-57"]}
{"id": "C203", "title": "Children of bones in the old format", "statement": "UpdateBoneRef makes the list of children of each bone of the old format the ids of the bones that have it as parent, each once and in increasing order, whatever was in the lists before; it changes nothing else, and it panics exactly if the parent of a bone does not exist.", "quantifier": "all lists of bones", "why_tests_cant": "needs all lists, with any parents and any lists of children before", "anchors": ["mqo/bone_plugin.go UpdateBoneRef 100-110, BoneOld 63-98"]}
