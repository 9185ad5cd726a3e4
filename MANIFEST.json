{
 "claims": [
  {
   "property": "C01",
   "status": "proved",
   "theorems": [
    "Verif.Geom.triangulate_covers",
    "Verif.Geom.triangulate_small",
    "Verif.Geom.triangulate_uses_every_edge"
   ],
   "note": "any arithmetic, including NaN"
  },
  {
   "property": "C02",
   "status": "proved",
   "theorems": [
    "Verif.Geom.triangulate_area"
   ],
   "note": "signed area along every direction, any commutative ring"
  },
  {
   "property": "C03",
   "status": "proved",
   "theorems": [
    "Verif.Geom.mul_toMatrix",
    "Verif.Geom.one_toMatrix",
    "Verif.Geom.transposed_toMatrix",
    "Verif.Geom.mul_monoid",
    "Verif.Geom.transposed_mul",
    "Verif.Geom.applyTo_mul",
    "Verif.Geom.affine_mul",
    "Verif.Geom.applyTo_mul_needs_affine"
   ],
   "note": "composition of point transforms needs affine matrices; a counterexample is given otherwise"
  },
  {
   "property": "C04",
   "status": "proved",
   "theorems": [
    "Verif.Geom.det_toMatrix",
    "Verif.Geom.det_mul",
    "Verif.Geom.mul_inverse",
    "Verif.Geom.inverse_spec",
    "Verif.Geom.inverse_singular",
    "Verif.Geom.inverse_applyTo"
   ],
   "note": "any field"
  },
  {
   "property": "C05",
   "status": "proved",
   "theorems": [
    "Verif.Geom.quat_applyTo_eq_matrix",
    "Verif.Geom.quat_lenSqr_mul",
    "Verif.Geom.quat_mul_assoc",
    "Verif.Geom.quat_mul_applyTo",
    "Verif.Geom.rotation_mul",
    "Verif.Geom.quat_dot",
    "Verif.Geom.quat_cross",
    "Verif.Geom.quat_inverse",
    "Verif.Geom.quat_inverse_needs_unit"
   ],
   "note": "any commutative ring"
  },
  {
   "property": "C06",
   "status": "proved",
   "theorems": [
    "Verif.Geom.eulerToQuat_product",
    "Verif.Geom.eulerToQuat_unit",
    "Verif.Geom.eulerToQuat_rotation"
   ],
   "note": "over the reals"
  },
  {
   "property": "C07",
   "status": "proved",
   "theorems": [
    "Verif.Geom.euler_roundtrip",
    "Verif.Geom.euler_angles_recovered"
   ],
   "note": "over the reals; the band 1-1e-8 <= |sine| < 1 is excluded because the code treats it as gimbal lock"
  },
  {
   "property": "C08",
   "status": "proved",
   "theorems": [
    "Verif.Geom.decompose_trs",
    "Verif.Geom.recompose_trs"
   ],
   "note": "over the reals; scale factors non-zero"
  },
  {
   "property": "C09",
   "status": "proved",
   "theorems": [
    "Verif.Geom.vec3_normalize",
    "Verif.Geom.vec3_normalize_zero",
    "Verif.Geom.vec2_normalize",
    "Verif.Geom.vec2_normalize_zero",
    "Verif.Geom.quat_normalize",
    "Verif.Geom.quat_normalize_zero"
   ],
   "note": "over the reals"
  },
  {
   "property": "C10",
   "status": "proved",
   "theorems": [
    "Verif.Mmd.pmx_index_roundtrip",
    "Verif.Mmd.pmx_vertex_index_roundtrip",
    "Verif.Mmd.pmx_index_size"
   ],
   "note": "every declared size, every value in range"
  },
  {
   "property": "C100",
   "status": "partial",
   "theorems": [
    "Verif.Cmd.chparent_partial",
    "Verif.Cmd.chparent_false",
    "Verif.Cmd.chparent_last"
   ],
   "note": "Distinct names and known parents; an unknown parent crashes."
  },
  {
   "property": "C101",
   "status": "proved",
   "theorems": [
    "Verif.Mqo.parse_total"
   ],
   "note": "The bound on the steps given by the length of the text is never reached."
  },
  {
   "property": "C102",
   "status": "proved",
   "theorems": [
    "Verif.Mqo.write_parse"
   ],
   "note": "`normDoc` is written out field by field in TextSpec. Printing and reading of numbers enter by the laws in `NumLaws`."
  },
  {
   "property": "C103",
   "status": "proved",
   "theorems": [
    "Verif.Mqo.write_parse_same",
    "Verif.Mqo.write_parse"
   ],
   "note": ""
  },
  {
   "property": "C104",
   "status": "partial",
   "theorems": [
    "Verif.Mqo.locked_false",
    "Verif.Mqo.object_flags_partial"
   ],
   "note": "False: `locking` is written and never read. The other flags are kept."
  },
  {
   "property": "C105",
   "status": "proved",
   "theorems": [
    "Verif.Fbx.parseText_total",
    "Verif.Fbx.parseFile_total"
   ],
   "note": ""
  },
  {
   "property": "C106",
   "status": "proved",
   "theorems": [
    "Verif.Fbx.write_parse",
    "Verif.Fbx.sections_saved",
    "Verif.Fbx.findChild_loaded",
    "Verif.Fbx.ident_name",
    "Verif.Fbx.list_lines"
   ],
   "note": "Hypothesis `NodesSafe`: names are identifiers, numbers print as tokens the reader takes, texts print without escapes. What is outside is C108 and C109."
  },
  {
   "property": "C107",
   "status": "proved",
   "theorems": [
    "Verif.Fbx.int_saved",
    "Verif.Fbx.goInt_saved",
    "Verif.Fbx.string_saved",
    "Verif.Fbx.connection_saved",
    "Verif.Fbx.i32_array_saved",
    "Verif.Fbx.i64_array_saved",
    "Verif.Fbx.f32_array_saved",
    "Verif.Fbx.f64_array_saved",
    "Verif.Fbx.geometry_saved"
   ],
   "note": "The facts about strconv and fmt are the fields of `TextLaws`; `toy_laws` shows they are consistent."
  },
  {
   "property": "C108",
   "status": "partial",
   "theorems": [
    "Verif.Fbx.name_saved",
    "Verif.Fbx.findModel_saved_false",
    "Verif.Fbx.escaped_saved_false",
    "Verif.Fbx.plain_saved_partial"
   ],
   "note": "False: names come back as Type::name, so that a model is no longer found by name; escapes are not undone. Plain texts are kept."
  },
  {
   "property": "C109",
   "status": "partial",
   "theorems": [
    "Verif.Fbx.exponent_saved_false",
    "Verif.Fbx.badText_exponent",
    "Verif.Fbx.write_parse"
   ],
   "note": "False: one number printed with an exponent makes the file unreadable. The part that holds is `write_parse`."
  },
  {
   "property": "C11",
   "status": "proved",
   "theorems": [
    "Verif.Mmd.pmx_text_roundtrip",
    "Verif.Mmd.pmx_text_utf16"
   ],
   "note": "UTF-8 bytes survive; UTF-16 texts decode to the same characters"
  },
  {
   "property": "C110",
   "status": "partial",
   "theorems": [
    "Verif.Fbx.empty_array_saved_false",
    "Verif.Fbx.empty_array_read_false",
    "Verif.Fbx.stray_brace_false",
    "Verif.Fbx.i32_array_saved",
    "Verif.Fbx.f64_array_saved"
   ],
   "note": "False: lost when saved; in files of other programs the brace of the empty array closes the enclosing node. Arrays with elements: `i32_array_saved`, `f64_array_saved`."
  },
  {
   "property": "C111",
   "status": "partial",
   "theorems": [
    "Verif.Fbx.short_first_line_false",
    "Verif.Fbx.first_line_partial"
   ],
   "note": "False for a first line shorter than 21 bytes."
  },
  {
   "property": "C112",
   "status": "partial",
   "theorems": [
    "Verif.Mqo.vertexID_saved_partial",
    "Verif.Mqo.vertexID_saved_false"
   ],
   "note": "False when the number of a vertex without ID is the ID of an earlier vertex. Without such a clash (`IDsOk`) it holds for all IDs."
  },
  {
   "property": "C113",
   "status": "partial",
   "theorems": [
    "Verif.Conv.mesh_normals_partial",
    "Verif.Conv.normal_shared_false"
   ],
   "note": "False at an edge with a continuous texture: vertices are shared by UV only, the normal of the first face wins. Holds where all corners at a vertex agree."
  },
  {
   "property": "C114",
   "status": "partial",
   "theorems": [
    "Verif.Conv.geometry_faces",
    "Verif.Conv.geometry_uv_indexed",
    "Verif.Conv.geometry_uv_direct",
    "Verif.Conv.geometry_material",
    "Verif.Conv.geometry_normals",
    "Verif.Conv.geometry_total",
    "Verif.Conv.geometry_uv_panics",
    "Verif.Conv.geometry_material_panics",
    "Verif.Conv.geometry_uv_other_false",
    "Verif.Conv.normals_indexed_false"
   ],
   "note": "Faces, materials, and texture coordinates by polygon vertex are proved. False: texture coordinates with another mapping are dropped, and the index list of normals is ignored (normals are proved for direct reference). Bad texture and material indexes are panics."
  },
  {
   "property": "C115",
   "status": "proved",
   "theorems": [
    "Verif.Conv.shapes_spec"
   ],
   "note": "All documents; a shape with index and vertex lists of different lengths gives a plain copy, indexes beyond the mesh are ignored, the last entry for a vertex counts."
  },
  {
   "property": "C116",
   "status": "proved",
   "theorems": [
    "Verif.Conv.bones_spec",
    "Verif.Conv.convert_total",
    "Verif.Conv.convertDeformer_scene",
    "Verif.Conv.bones_nonempty"
   ],
   "note": "A deformer that names the scene itself is a panic (`convertDeformer_scene`), excluded in `convert_total`."
  },
  {
   "property": "C117",
   "status": "proved",
   "theorems": [
    "Verif.Conv.weights_spec"
   ],
   "note": "Weights are passed on unchanged; see C122 for their scale."
  },
  {
   "property": "C118",
   "status": "proved",
   "theorems": [
    "Verif.Conv.objects_tree",
    "Verif.Conv.object_ids"
   ],
   "note": "One object per model if the children point back to their parents."
  },
  {
   "property": "C119",
   "status": "proved",
   "theorems": [
    "Verif.Conv.placement"
   ],
   "note": "With `ObjectDepth` at most 0, as in the command; with a positive depth the transform of the root can be replaced by an option."
  },
  {
   "property": "C12",
   "status": "proved",
   "theorems": [
    "Verif.Mmd.pmx_save_load",
    "Verif.Mmd.pmx_save_load_same"
   ],
   "note": "byte-level model of the whole writer and parser; docBack lists the fields the format cannot hold"
  },
  {
   "property": "C120",
   "status": "partial",
   "theorems": [
    "Verif.Conv.names_text_partial",
    "Verif.Conv.names_binary_false"
   ],
   "note": "Objects are right in both spellings, bones only in the text spelling. False for binary files: every bone keeps the ending `::Model` (`names_binary_false`)."
  },
  {
   "property": "C121",
   "status": "partial",
   "theorems": [
    "Verif.Conv.target_objects_partial",
    "Verif.Conv.target_no_bones_false"
   ],
   "note": "The objects are right. False for the skeleton: the result never has bones."
  },
  {
   "property": "C122",
   "status": "partial",
   "theorems": [
    "Verif.Conv.weight_scale_false",
    "Verif.Conv.weight_ratio_partial"
   ],
   "note": "False: the weight 1 is exported as 0.01. Proved: up to that factor the weights of a vertex with at most four of them are kept, with their order."
  },
  {
   "property": "C123",
   "status": "proved",
   "theorems": [
    "Verif.Gltf.bone_tracks",
    "Verif.Gltf.bone_tracks_nodup"
   ],
   "note": "distinct bone names and ids; without those the random map order of Go decides"
  },
  {
   "property": "C124",
   "status": "proved",
   "theorems": [
    "Verif.Gltf.rotation_sample",
    "Verif.Gltf.rotation_unit",
    "Verif.Gltf.correction_turn"
   ],
   "note": "exact arithmetic; cosine and sine with cos² + sin² = 1"
  },
  {
   "property": "C125",
   "status": "proved",
   "theorems": [
    "Verif.Gltf.translation_sample"
   ],
   "note": "exact arithmetic; default scales"
  },
  {
   "property": "C126",
   "status": "partial",
   "theorems": [
    "Verif.Gltf.rest_translation_partial",
    "Verif.Gltf.rest_translation_false"
   ],
   "note": "holds for bones without parent; false for bones with a parent"
  },
  {
   "property": "C127",
   "status": "partial",
   "theorems": [
    "Verif.Gltf.translation_sample",
    "Verif.Gltf.translation_scale_false"
   ],
   "note": "false for every scale other than the default; holds for the default"
  },
  {
   "property": "C128",
   "status": "proved",
   "theorems": [
    "Verif.Gltf.emissive_spec"
   ],
   "note": "exact arithmetic"
  },
  {
   "property": "C129",
   "status": "proved",
   "theorems": [
    "Verif.Gltf.materials_refs"
   ],
   "note": "files are taken to be readable or not for the whole export"
  },
  {
   "property": "C13",
   "status": "partial",
   "theorems": [
    "Verif.Mmd.pmx_joint_roundtrip_false",
    "Verif.Mmd.pmx_joint_roundtrip_partial"
   ],
   "note": "false for the default header: witness proved; holds for equal bone and body index sizes"
  },
  {
   "property": "C130",
   "status": "proved",
   "theorems": [
    "Verif.Gltf.materials_refs",
    "Verif.Gltf.extTable_naming"
   ],
   "note": "colors with fewer than three numbers are a panic"
  },
  {
   "property": "C131",
   "status": "partial",
   "theorems": [
    "Verif.Gltf.alpha_mode_set",
    "Verif.Gltf.alpha_mode_only_partial",
    "Verif.Gltf.alpha_mode_only_false",
    "Verif.Gltf.material_fields"
   ],
   "note": "the mode is always right; that nothing else changes holds for materials with the glTF shader and is false for others"
  },
  {
   "property": "C132",
   "status": "partial",
   "theorems": [
    "Verif.Gltf.mask_cutoff_partial",
    "Verif.Gltf.mask_cutoff_false"
   ],
   "note": "holds if the source has the parameter AlphaCutOff; false for imported glTF materials and other shaders"
  },
  {
   "property": "C133",
   "status": "partial",
   "theorems": [
    "Verif.Gltf.gltf_material_partial",
    "Verif.Gltf.gltf_alpha_false",
    "Verif.Gltf.gltf_default_false"
   ],
   "note": "everything but the alpha mode for materials with PBR block; alpha mode and materials without that block are lost"
  },
  {
   "property": "C134",
   "status": "partial",
   "theorems": [
    "Verif.Gltf.gltf_unlit_partial"
   ],
   "note": "the exact condition under which the result is unlit, which does not depend on the source being unlit"
  },
  {
   "property": "C135",
   "status": "proved",
   "theorems": [
    "Verif.Conv.document_materials"
   ],
   "note": "documents converted as a whole"
  },
  {
   "property": "C136",
   "status": "proved",
   "theorems": [
    "Verif.Conv.override_order",
    "Verif.Conv.target_materials"
   ],
   "note": "material numbers within the list of given materials; others are skipped by `override_order`"
  },
  {
   "property": "C137",
   "status": "proved",
   "theorems": [
    "Verif.Conv.target_place"
   ],
   "note": "exact arithmetic; axes given by an affine matrix"
  },
  {
   "property": "C138",
   "status": "proved",
   "theorems": [
    "Verif.Conv.unity_tree"
   ],
   "note": "order of children for lists that name no object twice"
  },
  {
   "property": "C139",
   "status": "partial",
   "theorems": [
    "Verif.Conv.unity_visible",
    "Verif.Conv.unity_shapes_hidden_false"
   ],
   "note": "visibility follows the game objects as stated; missing: objects of blend shapes become visible with their mesh, which is disproved"
  },
  {
   "property": "C14",
   "status": "partial",
   "theorems": [
    "Verif.Mmd.pmx_vertex_desync_false",
    "Verif.Mmd.pmx_vertex_roundtrip_partial"
   ],
   "note": "false for 5-10 and 12+ weights (proved for all such vertices); holds for 0-4 and 11"
  },
  {
   "property": "C140",
   "status": "proved",
   "theorems": [
    "Verif.Conv.unity_materials",
    "Verif.Conv.unity_materials_fbx"
   ],
   "note": "for imported meshes with at least two material numbers and two materials, and numbers within the list"
  },
  {
   "property": "C141",
   "status": "partial",
   "theorems": [
    "Verif.Conv.unity_uv_partial",
    "Verif.Conv.unity_uv_caps_false"
   ],
   "note": "false for the caps of the cylinder, proved for all other faces of built-in meshes"
  },
  {
   "property": "C142",
   "status": "proved",
   "theorems": [
    "Verif.Conv.unity_place",
    "Verif.Conv.unity_place_fbx"
   ],
   "note": "exact arithmetic; imported meshes that are found by name among the models at the top of the file"
  },
  {
   "property": "C143",
   "status": "partial",
   "theorems": [
    "Verif.Conv.unity_bodies_partial",
    "Verif.Conv.collider_place_false",
    "Verif.Conv.box_size_false",
    "Verif.Conv.cube_collider_false"
   ],
   "note": "bodies, masses, kinds, shapes; places only for centres without z, sizes of boxes only for even scales; the rest is disproved"
  },
  {
   "property": "C144",
   "status": "proved",
   "theorems": [
    "Verif.Conv.unity_lights"
   ],
   "note": "place of the light object: `unity_place` of C142"
  },
  {
   "property": "C145",
   "status": "proved",
   "theorems": [
    "Verif.Conv.texture_files"
   ],
   "note": "GUIDs without underscore and slash"
  },
  {
   "property": "C146",
   "status": "partial",
   "theorems": [
    "Verif.Conv.bones_replaced_false",
    "Verif.Conv.bones_kept_false",
    "Verif.Conv.unity_bones_partial"
   ],
   "note": "disproved for several files: the bones of the file converted last replace the others; proved for a scene with one mesh with bones"
  },
  {
   "property": "C147",
   "status": "partial",
   "theorems": [
    "Verif.Unity.instance_values_partial",
    "Verif.Unity.instances_apart",
    "Verif.Unity.number_name_false",
    "Verif.Unity.active_values"
   ],
   "note": "false of the code for a modification that gives a number as name: the name becomes empty (`number_name_false`). Proved otherwise: files with different ids; properties of game objects, transforms, mesh renderers, mesh filters, lights, rigid bodies and colliders; the value of a modification is read as the program does"
  },
  {
   "property": "C148",
   "status": "proved",
   "theorems": [
    "Verif.Unity.scene_roots",
    "Verif.Unity.scene_roots_nodup"
   ],
   "note": ""
  },
  {
   "property": "C149",
   "status": "proved",
   "theorems": [
    "Verif.Unity.scene_children",
    "Verif.Unity.instance_is_child",
    "Verif.Unity.placeholder_transform"
   ],
   "note": "prefabs whose root is an object of their own file; variants are C151"
  },
  {
   "property": "C15",
   "status": "partial",
   "theorems": [
    "Verif.Mmd.pmd_save_pmx_panics_false",
    "Verif.Mmd.pmd_morphs_as_pmx_false"
   ],
   "note": "false: saving any loaded PMD document as PMX panics on the empty header; with a header filled in, every PMD morph list with an entry is written with morph kind 0"
  },
  {
   "property": "C150",
   "status": "partial",
   "theorems": [
    "Verif.Unity.own_parent",
    "Verif.Unity.instance_parent_false"
   ],
   "note": "proved for transforms of one file; disproved for the roots of all instances"
  },
  {
   "property": "C151",
   "status": "partial",
   "theorems": [
    "Verif.Unity.instance_is_child",
    "Verif.Unity.scene_roots",
    "Verif.Unity.added_object_lost_false",
    "Verif.Unity.variant_lost_false"
   ],
   "note": "instances of prefabs with a root of their own are kept; objects added to instances and variants with a parent are lost, which is proved"
  },
  {
   "property": "C152",
   "status": "partial",
   "theorems": [
    "Verif.Unity.loading_ends",
    "Verif.Unity.loading_fuel",
    "Verif.Unity.cycle_never_loads_false"
   ],
   "note": "proved if no prefab contains itself and every instance has a parent entry; disproved otherwise"
  },
  {
   "property": "C153",
   "status": "partial",
   "theorems": [
    "Verif.Conv.reuse_place_iff",
    "Verif.Conv.reuse_place_partial",
    "Verif.Conv.reuse_faces_partial",
    "Verif.Conv.own_geometry",
    "Verif.Conv.reuse_place_false",
    "Verif.Conv.reuse_panics_false",
    "Verif.Conv.reuse_loses_false",
    "Verif.Conv.reuse_uv_false",
    "Verif.Conv.skipped_geometry",
    "Verif.Conv.skipped_place_false"
   ],
   "note": "places agree exactly if the scale is 1 or the first object is at the origin; triangles agree for objects with the same faces; otherwise disproved"
  },
  {
   "property": "C154",
   "status": "partial",
   "theorems": [
    "Verif.Conv.light_place",
    "Verif.Conv.light_mesh_false"
   ],
   "note": "lights are in place; meshes at the same object are moved, which is proved"
  },
  {
   "property": "C155",
   "status": "partial",
   "theorems": [
    "Verif.Mqo.adjust_horizontal",
    "Verif.Mqo.autotpose_horizontal_partial",
    "Verif.Mqo.autotpose_lengths_partial",
    "Verif.Mqo.autotpose_order_false"
   ],
   "note": "proved for lists in which bones come after their parents (real numbers); disproved for other orders; vertices are C72"
  },
  {
   "property": "C156",
   "status": "partial",
   "theorems": [
    "Verif.Mqo.transform_points",
    "Verif.Mqo.transform_total",
    "Verif.Mqo.transform_panics",
    "Verif.Mqo.box_scaled_partial",
    "Verif.Mqo.ball_scaled_partial",
    "Verif.Mqo.frame_scaled_partial",
    "Verif.Mqo.box_rotated_false",
    "Verif.Mqo.joints_false",
    "Verif.Mqo.nested_frames_false",
    "Verif.Mqo.scale_option",
    "Verif.Mqo.turned_animation"
   ],
   "note": "vertices, bones, centres, balls and boxes that are not rotated, frames of objects without rotation at the top; disproved for joints, rotated boxes and nested frames"
  },
  {
   "property": "C157",
   "status": "partial",
   "theorems": [
    "Verif.Cmd.alpha_rules",
    "Verif.Cmd.alpha_exported",
    "Verif.Cmd.hidemat_exported",
    "Verif.Cmd.unlit_exported",
    "Verif.Cmd.unlit_alpha_false"
   ],
   "note": "each option alone, and rules of -alpha that do not overlap; -alpha together with -unlit is disproved; patterns and the parsing of numbers are parameters"
  },
  {
   "property": "C158",
   "status": "partial",
   "theorems": [
    "Verif.Gltf.alpha_sound",
    "Verif.Gltf.alpha_found_partial",
    "Verif.Gltf.alpha_no_uv",
    "Verif.Gltf.bounds_cover_partial",
    "Verif.Gltf.palette_false",
    "Verif.Gltf.whole_texture_false",
    "Verif.Gltf.shared_vertices_false",
    "Verif.Gltf.seam_false"
   ],
   "note": "nothing is reported wrongly; texels inside the rectangle of the UVs are found in images with 8 bits per channel; the rest is disproved; the effect on the material is C133"
  },
  {
   "property": "C159",
   "status": "partial",
   "theorems": [
    "Verif.Gltf.width_limited",
    "Verif.Gltf.same_factor",
    "Verif.Gltf.height_false",
    "Verif.Gltf.copied_false"
   ],
   "note": "width and ratio of images that are encoded; disproved for heights and copied files"
  },
  {
   "property": "C16",
   "status": "proved",
   "theorems": [
    "Verif.Mmd.bone_channels",
    "Verif.Mmd.morph_channels",
    "Verif.Mmd.channels_nodup",
    "Verif.Mmd.bone_channels_unique"
   ],
   "note": "for every outcome of the unstable sort"
  },
  {
   "property": "C160",
   "status": "partial",
   "theorems": [
    "Verif.Gltf.data_type",
    "Verif.Gltf.encoded_iff",
    "Verif.Gltf.exported_partial",
    "Verif.Gltf.absolute_false",
    "Verif.Gltf.flat_false",
    "Verif.Gltf.copied_path"
   ],
   "note": "types are right for all files; exported for relative names and sizes that can be encoded; codecs are not modelled"
  },
  {
   "property": "C161",
   "status": "partial",
   "theorems": [
    "Verif.Conv.bone_bodies",
    "Verif.Conv.object_bodies",
    "Verif.Conv.shape_place",
    "Verif.Conv.loose_body_false",
    "Verif.Conv.shape_turn_false",
    "Verif.Conv.groups_false"
   ],
   "note": "shapes, places, sizes, masses and fixing for all bodies with a bone or an object; disproved for other bodies, turns and groups"
  },
  {
   "property": "C162",
   "status": "partial",
   "theorems": [
    "Verif.Conv.colliders_partial",
    "Verif.Conv.collider_node",
    "Verif.Conv.mmd_sphere",
    "Verif.Conv.same_name_false",
    "Verif.Conv.box_false",
    "Verif.Conv.springs_pass_false"
   ],
   "note": "spheres and capsules with different node names; disproved for boxes, equal names and the springs made from physics"
  },
  {
   "property": "C163",
   "status": "partial",
   "theorems": [
    "Verif.Conv.mmd_material_values",
    "Verif.Conv.mqo_material_values",
    "Verif.Conv.material_round_trip",
    "Verif.Conv.mmd_texture_false",
    "Verif.Conv.double_sided_false",
    "Verif.Conv.mmd_edge",
    "Verif.Conv.edge_flag_false"
   ],
   "note": "name, color, power and texture; sides from MMD to MQO; disproved for sides and edges from MQO to MMD and for wrong texture numbers"
  },
  {
   "property": "C164",
   "status": "partial",
   "theorems": [
    "Verif.Conv.morph_materials",
    "Verif.Conv.morph_effect_partial",
    "Verif.Conv.all_materials_false"
   ],
   "note": "distinct names without colons in morph names, at most one offset per material in a morph; disproved for offsets that name all materials"
  },
  {
   "property": "C165",
   "status": "partial",
   "theorems": [
    "Verif.Conv.fbx_material_values",
    "Verif.Conv.fbx_material_texture",
    "Verif.Conv.fbx_name_false",
    "Verif.Conv.fbx_texture_kind_false",
    "Verif.Conv.fbx_whole_number"
   ],
   "note": "all numbers, from the material or the template, for well formed property lists; disproved for names and kinds of textures"
  },
  {
   "property": "C166",
   "status": "partial",
   "theorems": [
    "Verif.Cmd.single_file_partial",
    "Verif.Cmd.other_directory_false",
    "Verif.Cmd.wrong_file_false",
    "Verif.Cmd.absolute_dir_false",
    "Verif.Cmd.image_type_false",
    "Verif.Cmd.buffer_names_partial",
    "Verif.Cmd.buffer_clash_false"
   ],
   "note": "sources in the current directory, buffers without files; disproved for sources elsewhere"
  },
  {
   "property": "C167",
   "status": "partial",
   "theorems": [
    "Verif.Cmd.scene_found",
    "Verif.Cmd.texture_directory",
    "Verif.Cmd.only_scene",
    "Verif.Cmd.missing_scene",
    "Verif.Cmd.other_assets_false",
    "Verif.Cmd.upper_package_false"
   ],
   "note": "all projects whose directory of assets is called `Assets`; disproved for names that end with it and for upper case package names"
  },
  {
   "property": "C168",
   "status": "partial",
   "theorems": [
    "Verif.Mqo.morph_option_runs",
    "Verif.Mqo.morph_rules",
    "Verif.Mqo.morph_order",
    "Verif.Mqo.material_order_false",
    "Verif.Mqo.morph_twice_false"
   ],
   "note": "shapes for rules with different names; disproved for colors and repeated names; the text of the option is not modelled"
  },
  {
   "property": "C169",
   "status": "partial",
   "theorems": [
    "Verif.Unity.package_files",
    "Verif.Unity.package_assets",
    "Verif.Unity.asset_by_guid",
    "Verif.Unity.asset_by_path_partial",
    "Verif.Unity.no_other_path",
    "Verif.Unity.no_directory_false",
    "Verif.Unity.second_line_false",
    "Verif.Unity.same_path_false",
    "Verif.Unity.material_first",
    "Verif.Unity.material_none"
   ],
   "note": "archives with entries for directories and different paths; disproved otherwise; gzip, tar and the decoding of YAML are trusted"
  },
  {
   "property": "C17",
   "status": "partial",
   "theorems": [
    "Verif.Mmd.pmx_truncated_false",
    "Verif.Mmd.pmx_truncated_partial"
   ],
   "note": "false: witness proved; only a cut inside the format tag is reported"
  },
  {
   "property": "C170",
   "status": "partial",
   "theorems": [
    "Verif.Mqo.bone_back",
    "Verif.Mqo.mqx_back",
    "Verif.Mqo.save_load_partial",
    "Verif.Mqo.save_load_mqoz_partial",
    "Verif.Mqo.physics_back_false",
    "Verif.Mqo.missing_mqx_false",
    "Verif.Mqo.loaded_weight_false",
    "Verif.Mqo.resaved_objects_false",
    "Verif.Mqo.saved_files",
    "Verif.Mqo.saved_archive"
   ],
   "note": "XML text and strconv are trusted (XmlLaws); the text part is C102 and C103; poses and bones of the old format are left out; physics is lost (disproved)"
  },
  {
   "property": "C171",
   "status": "partial",
   "theorems": [
    "Verif.Gltf.import_objects",
    "Verif.Gltf.import_bones_partial",
    "Verif.Gltf.object_placement_false",
    "Verif.Gltf.bone_rotation_false",
    "Verif.Gltf.no_skeleton_false",
    "Verif.Gltf.nested_skeleton_false"
   ],
   "note": "placement of objects and rotation of joints are ignored (disproved); cycles of joints make the import run forever and are modelled as running out of fuel"
  },
  {
   "property": "C172",
   "status": "partial",
   "theorems": [
    "Verif.Cmd.supported_iff",
    "Verif.Cmd.format_partial",
    "Verif.Cmd.animations_partial",
    "Verif.Cmd.upper_case_false",
    "Verif.Cmd.format_option_false",
    "Verif.Cmd.animations_lost_false",
    "Verif.Cmd.more_inputs_false"
   ],
   "note": "errors of readers and writers themselves are left out; the type follows the name only in lower case and without -format; animations are used only for glTF output from another type"
  },
  {
   "property": "C173",
   "status": "partial",
   "theorems": [
    "Verif.Cmd.size_partial",
    "Verif.Cmd.gltf_size_false"
   ],
   "note": "the factors are those of the converters that C13-style claims on single converters establish; FBX units vary and are left out; glTF to other formats is disproved"
  },
  {
   "property": "C174",
   "status": "partial",
   "theorems": [
    "Verif.Mqo.codePage_iff",
    "Verif.Mqo.first_lines_read",
    "Verif.Mqo.bytes_back",
    "Verif.Mqo.shift_jis_slashes",
    "Verif.Mqo.short_read_false",
    "Verif.Mqo.late_code_page_false",
    "Verif.Mqo.utf8_backslash_false"
   ],
   "note": "the first read has to give the first three lines; x/text is a parameter; text that is not UTF-8 is left out"
  },
  {
   "property": "C175",
   "status": "proved",
   "theorems": [
    "Verif.Gltf.export_listed",
    "Verif.Gltf.light_index",
    "Verif.Gltf.vrm_listed",
    "Verif.Gltf.vrm_physics_gone",
    "Verif.Gltf.settings_exact",
    "Verif.Gltf.properties_partial",
    "Verif.Gltf.physics_listed_false",
    "Verif.Gltf.properties_false"
   ],
   "note": "the content of extensions is C130, C154 and C161"
  },
  {
   "property": "C176",
   "status": "proved",
   "theorems": [
    "Verif.Fbx.FDoc.references_of_file",
    "Verif.Fbx.FDoc.parents_of_file",
    "Verif.Fbx.FDoc.tree_of_file",
    "Verif.Fbx.FDoc.references_saved"
   ],
   "note": "ids of objects are distinct and the version is not 6100 (see C177); values of properties are other claims"
  },
  {
   "property": "C177",
   "status": "partial",
   "theorems": [
    "Verif.Fbx.FDoc.scene6100_partial",
    "Verif.Fbx.FDoc.text6100_false",
    "Verif.Fbx.FDoc.saved6100_false",
    "Verif.Fbx.FDoc.own_parent_false",
    "Verif.Conv.saved6100_objects_false"
   ],
   "note": "holds only for names as in binary files"
  },
  {
   "property": "C178",
   "status": "partial",
   "theorems": [
    "Verif.Fbx.FDoc.edits_kept_partial",
    "Verif.Fbx.FDoc.edits_succeed",
    "Verif.Fbx.FDoc.new_document_kept",
    "Verif.Fbx.FDoc.references_saved",
    "Verif.Fbx.FDoc.dangling_false",
    "Verif.Fbx.FDoc.connected_parent_false",
    "Verif.Fbx.FDoc.materials_false",
    "Verif.Fbx.FDoc.own_parent_false"
   ],
   "note": "proved for objects, ids and references, if connections are between objects of the document; false of parents and materials"
  },
  {
   "property": "C179",
   "status": "proved",
   "theorems": [
    "Verif.Conv.objects_of_file"
   ],
   "note": "numbers, characters and the rotation of Euler angles are parameters of the model; version 6100 see C177"
  },
  {
   "property": "C18",
   "status": "proved",
   "theorems": [
    "Verif.Mqo.fixNames_spec",
    "Verif.Mqo.fixNames_id",
    "Verif.Mqo.fixNames_idem"
   ],
   "note": ""
  },
  {
   "property": "C180",
   "status": "proved",
   "theorems": [
    "Verif.Conv.vertices_of_file"
   ],
   "note": "objects at depth 0 or above; matrices and axes are read from the nodes of the file (fileMatrix, fileAxes): product of translation, rotations and scale of the properties"
  },
  {
   "property": "C181",
   "status": "proved",
   "theorems": [
    "Verif.Conv.saved_document_converted"
   ],
   "note": "how numbers are printed and read again is a law (TextLaws, FloatText) about strconv; vertices are 32-bit or 64-bit numbers; names with :: inside see C120"
  },
  {
   "property": "C182",
   "status": "proved",
   "theorems": [
    "Verif.Mqo.source_parse",
    "Verif.Mqo.source_unknown"
   ],
   "note": "whole numbers without sign; names and texts without quotes, backslashes and line ends; every material and face has at least one attribute; the data of the plugin file is not part of the document (C170 is about it); the words of the format may not stand in unknown blocks of the file (C184)"
  },
  {
   "property": "C183",
   "status": "proved",
   "theorems": [
    "Verif.Mqo.source_order"
   ],
   "note": "that vertex attributes are behind the vertices is part of both texts being in the grammar"
  },
  {
   "property": "C184",
   "status": "partial",
   "theorems": [
    "Verif.Mqo.unknown_block_false",
    "Verif.Mqo.source_unknown"
   ],
   "note": "false of the code: the words inside of unknown blocks of the file are taken as words of the file; holds for contents without the seven words Material, MaterialEx2, Object, Scene, Thumbnail, IncludeXml and Eof"
  },
  {
   "property": "C185",
   "status": "proved",
   "theorems": [
    "Verif.Conv.export_nodes",
    "Verif.Conv.export_materials"
   ],
   "note": "over the real numbers; without bones, lights and shared geometry"
  },
  {
   "property": "C186",
   "status": "partial",
   "theorems": [
    "Verif.Conv.morph_lost_false",
    "Verif.Conv.morph_missing_false",
    "Verif.Conv.unused_material_false",
    "Verif.Conv.export_nodes"
   ],
   "note": "false of the code: targets of lists that are replaced by a later list with the same base, or whose base does not exist, appear nowhere; a missing target panics; a material that only lines have is exported without use. What holds is C185"
  },
  {
   "property": "C187",
   "status": "proved",
   "theorems": [
    "Verif.Gltf.motion_file",
    "Verif.Gltf.motion_shown"
   ],
   "note": "numbers, texts and `uint8(v * 255)` are parameters; names of bones and morph targets of the model are distinct and different names of the file are different texts; for morphs of one mesh with different key times see C89"
  },
  {
   "property": "C188",
   "status": "partial",
   "theorems": [
    "Verif.Gltf.curves_false",
    "Verif.Gltf.motion_file"
   ],
   "note": "false of the code: all keys are exported with linear interpolation and the curves are dropped; what holds is that the keys themselves are right (C187)"
  },
  {
   "property": "C189",
   "status": "partial",
   "theorems": [
    "Verif.Gltf.shared_morph_false",
    "Verif.Gltf.motion_file"
   ],
   "note": "false of the code (marked TODO there): only the last mesh with the name is animated; with distinct names all meshes are animated (C187)"
  },
  {
   "property": "C19",
   "status": "partial",
   "theorems": [
    "Verif.Mqo.fixObjectIDs_unique_false",
    "Verif.Mqo.fixObjectIDs_unique_iff",
    "Verif.Mqo.fixObjectIDs_nonzero",
    "Verif.Mqo.getObjectByID_unique"
   ],
   "note": "Uniqueness is false of the code; the exact condition is proved."
  },
  {
   "property": "C190",
   "status": "proved",
   "theorems": [
    "Verif.Conv.scene_objects",
    "Verif.Conv.linked_objects",
    "Verif.Conv.linked_parts"
   ],
   "note": "ids within a file are distinct and not 0, instances are put under transforms of their own file, and a prefab has one root; the places of colliders with a z in the centre, the sizes of unevenly scaled boxes and the texture coordinates of cylinder caps are left out (wrong in the program, see C141, C143); `Numbering` gives game objects of all loaded scenes numbers, as the converter model has numbers instead of pointers"
  },
  {
   "property": "C191",
   "status": "proved",
   "theorems": [
    "Verif.Unity.cube_picture",
    "Verif.Unity.cylinder_picture",
    "Verif.Unity.sphere_mirrored_false",
    "Verif.Unity.flat_picture"
   ],
   "note": "real trigonometric functions, exact numbers; caps of cylinders and capsules are covered by the consistent orientation of C97"
  },
  {
   "property": "C192",
   "status": "partial",
   "theorems": [
    "Verif.Unity.cube_picture",
    "Verif.Unity.cylinder_picture",
    "Verif.Unity.flat_picture",
    "Verif.Unity.builtin_uv",
    "Verif.Unity.sphere_mirrored_false",
    "Verif.Unity.capsule_mirrored_false",
    "Verif.Unity.cylinder_caps_false"
   ],
   "note": "false of the code for spheres (every face is mirrored), capsules (caps mirrored, wall not) and the caps of cylinders (one line of the picture); true for the rest"
  },
  {
   "property": "C193",
   "status": "proved",
   "theorems": [
    "Verif.Conv.bound_of_file"
   ],
   "note": "clusters whose numbers of indexes and weights differ give no weights (as in the code); positions are those of one of the clusters of a bone; objects at depth 0 or above"
  },
  {
   "property": "C194",
   "status": "partial",
   "theorems": [
    "Verif.Vrm.config_used",
    "Verif.Vrm.plain_name_false",
    "Verif.Vrm.config_error_false"
   ],
   "note": "config_used is the choice of the config as stated; proved false: reporting an error for configs that cannot be read (config_error_false); plain file names are never read (plain_name_false)"
  },
  {
   "property": "C195",
   "status": "partial",
   "theorems": [
    "Verif.Vrm.resave_partial",
    "Verif.Vrm.resave_false"
   ],
   "note": "first person bone, expressions, springs, colliders and material properties are kept; proved false for title, author, license and bones"
  },
  {
   "property": "C196",
   "status": "partial",
   "theorems": [
    "Verif.Vrm.own_config_wins",
    "Verif.Vrm.preset_scope",
    "Verif.Vrm.own_wildcard_false",
    "Verif.Vrm.preset_missing_false"
   ],
   "note": "proved for titles, bones and materials named in the config; preset_scope: only the mappings and settings of a preset have an effect; proved false for the setting for all materials (own_wildcard_false); preset_missing_false: what is written when the preset is missing"
  },
  {
   "property": "C197",
   "status": "partial",
   "theorems": [
    "Verif.Vrm.vrm_ends_partial",
    "Verif.Vrm.preset_crash_false",
    "Verif.Vrm.node_crash_false"
   ],
   "note": "holds if expressions do not name nodes without mesh and if a config without material settings has no preset with some; both exceptions are proved to crash"
  },
  {
   "property": "C198",
   "status": "proved",
   "theorems": [
    "Verif.Vrm.springs_written",
    "Verif.Vrm.physics_springs"
   ],
   "note": "physics_springs is for nodes with a parent, without mesh, and with a unique name that is no pattern; the starts are looked up by name"
  },
  {
   "property": "C199",
   "status": "proved",
   "theorems": [
    "Verif.Vrm.colliders_written"
   ],
   "note": "nodes with the same name: see C162"
  },
  {
   "property": "C20",
   "status": "proved",
   "theorems": [
    "Verif.Mqo.flip_reverse",
    "Verif.Mqo.flip_flip",
    "Verif.Mqo.flip_corners"
   ],
   "note": ""
  },
  {
   "property": "C200",
   "status": "proved",
   "theorems": [
    "Verif.Vrm.expressions_written"
   ],
   "note": "crashes are C96 and C197; target names in documents loaded from files are not seen by the code (finding C96), so meshes here are those with names"
  },
  {
   "property": "C201",
   "status": "proved",
   "theorems": [
    "Verif.Vrm.preset_skeleton"
   ],
   "note": "own mappings of a config in addition to a preset: C196; JSON decoding is trusted; the tables are copied from the files"
  },
  {
   "property": "C202",
   "status": "proved",
   "theorems": [
    "Verif.Vrm.pmx_vrm_skeleton"
   ],
   "note": "IK bones are left out; the object nodes and the bodies of bones are arbitrary; a bone that inherits the rotation of a bone with a negative index panics (C82), which the hypothesis that the conversion ends excludes"
  },
  {
   "property": "C203",
   "status": "partial",
   "theorems": [
    "Verif.Mqo.bone_refs_partial",
    "Verif.Mqo.bone_refs_false"
   ],
   "note": "false of the code for bones that are not numbered from 1 in their order; proved for those that are"
  },
  {
   "property": "C21",
   "status": "partial",
   "theorems": [
    "Verif.Mqo.worldTransforms_false",
    "Verif.Mqo.worldTransforms_flat_partial",
    "Verif.Mqo.worldTransforms_total"
   ],
   "note": "False for every document with a hierarchy; proved for flat documents."
  },
  {
   "property": "C22",
   "status": "partial",
   "theorems": [
    "Verif.Mqo.setRotation_false",
    "Verif.Mqo.setRotation_axis_partial"
   ],
   "note": "Set and get use different rotation orders; holds for turns about one axis."
  },
  {
   "property": "C23",
   "status": "proved",
   "theorems": [
    "Verif.Mqo.setVertexWeight_spec",
    "Verif.Mqo.setVertexWeight_others"
   ],
   "note": "For bones built by the program; see C66 for loaded ones."
  },
  {
   "property": "C24",
   "status": "partial",
   "theorems": [
    "Verif.Mqo.preSerialize_twice_false",
    "Verif.Mqo.preSerialize_once_partial"
   ],
   "note": "False whenever some object has weights."
  },
  {
   "property": "C25",
   "status": "proved",
   "theorems": [
    "Verif.Mqo.write_parse_indexes",
    "Verif.Mqo.write_parse",
    "Verif.Mqo.readFace_write"
   ],
   "note": "Character level: writer output, scanner and parser. Hypotheses `DocOk`: names without quotes, backslashes and line breaks, numbers that print finitely, materials not negative; `readFace_write` needs only the face."
  },
  {
   "property": "C26",
   "status": "partial",
   "theorems": [
    "Verif.Mqo.material_none_false",
    "Verif.Mqo.face_material_partial"
   ],
   "note": "False: `-` is a token of its own, so that M(-1) is read as material 0 and the rest of the line is lost; no parsed face ever has material -1. Faces with a material are read back."
  },
  {
   "property": "C27",
   "status": "proved",
   "theorems": [
    "Verif.Mqo.morph_apply",
    "Verif.Mqo.morph_zero",
    "Verif.Mqo.morph_base",
    "Verif.Mqo.morph_add"
   ],
   "note": "Exact arithmetic; distinct names."
  },
  {
   "property": "C28",
   "status": "partial",
   "theorems": [
    "Verif.Mqo.materialMorph_missing_false",
    "Verif.Mqo.materialMorph_partial"
   ],
   "note": "The program stops exactly if a target material is missing."
  },
  {
   "property": "C29",
   "status": "proved",
   "theorems": [
    "Verif.Fbx.polygons_roundtrip",
    "Verif.Fbx.polygons_empty_dropped",
    "Verif.Fbx.polygonVertexCount_correct",
    "Verif.Fbx.polygonVertexCount_empty_false"
   ],
   "note": "Non-empty faces; the count is wrong (1) for a mesh without faces."
  },
  {
   "property": "C30",
   "status": "proved",
   "theorems": [
    "Verif.Fbx.IdDoc.addObject_unique",
    "Verif.Fbx.IdDoc.addAll_succeeds"
   ],
   "note": "Objects do not share nodes; ids do not overflow."
  },
  {
   "property": "C31",
   "status": "partial",
   "theorems": [
    "Verif.Fbx.property_history_partial",
    "Verif.Fbx.set_then_get_partial",
    "Verif.Fbx.set_then_get_false",
    "Verif.Fbx.setProperty_panics",
    "Verif.Fbx.getProperty_panics"
   ],
   "note": "False when a name occurs twice among the properties."
  },
  {
   "property": "C32",
   "status": "proved",
   "theorems": [
    "Verif.Fbx.parse_encoded",
    "Verif.Fbx.parse_encodeFile",
    "Verif.Fbx.encoding_unique"
   ],
   "note": "The decompressor is a parameter."
  },
  {
   "property": "C33",
   "status": "partial",
   "theorems": [
    "Verif.Fbx.skipTo_stream_false",
    "Verif.Fbx.skipTo_partial",
    "Verif.Fbx.skipTo_back"
   ],
   "note": "False on input that cannot be seeked."
  },
  {
   "property": "C34",
   "status": "partial",
   "theorems": [
    "Verif.Fbx.setLayerElementNormal_stores_false",
    "Verif.Fbx.setLayerElementMaterialIndex_stores_false",
    "Verif.Fbx.setLayerElementUVIndexed_stores_false",
    "Verif.Fbx.setLayerElementNormal_partial"
   ],
   "note": "False of the code."
  },
  {
   "property": "C35",
   "status": "proved",
   "theorems": [
    "Verif.Fbx.worldMatrix_product",
    "Verif.Fbx.localMatrix_applyTo",
    "Verif.Fbx.worldMatrix_applyTo",
    "Verif.Fbx.worldMatrix_cycle_diverges"
   ],
   "note": "For parent chains without a cycle; a cycle recurses without end."
  },
  {
   "property": "C36",
   "status": "proved",
   "theorems": [
    "Verif.Conv.genMorphGroup_spec",
    "Verif.Conv.genMorphGroup_panics",
    "Verif.Conv.convertObjects_faces",
    "Verif.Conv.convertFaces_vmap"
   ],
   "note": "Documents whose indices are in range; for others the code panics (genMorphGroup_panics)."
  },
  {
   "property": "C37",
   "status": "proved",
   "theorems": [
    "Verif.Conv.coords_roundtrip",
    "Verif.Conv.coords_roundtrip'",
    "Verif.Conv.coords_mirror",
    "Verif.Conv.coords_orientation"
   ],
   "note": "Over a field; rounding of float32 is not modelled."
  },
  {
   "property": "C38",
   "status": "proved",
   "theorems": [
    "Verif.Conv.toMmd_faces",
    "Verif.Conv.toMmd_counts",
    "Verif.Conv.toMmd_range",
    "Verif.Conv.sourceFaces_count",
    "Verif.Conv.toMmd_unassigned"
   ],
   "note": "Faces without a valid material are dropped (toMmd_unassigned)."
  },
  {
   "property": "C39",
   "status": "partial",
   "theorems": [
    "Verif.Conv.body_mode_false",
    "Verif.Conv.body_bone_false",
    "Verif.Conv.body_roundtrip_partial"
   ],
   "note": "False of the code: the kind is inverted, a body without bone gets bone 0; the other fields come back."
  },
  {
   "property": "C40",
   "status": "partial",
   "theorems": [
    "Verif.Conv.getWeights_joints",
    "Verif.Conv.getWeights_total",
    "Verif.Conv.getWeights_few",
    "Verif.Conv.getWeights_normalised",
    "Verif.Conv.getWeights_largest_partial",
    "Verif.Conv.getWeights_largest_false"
   ],
   "note": "Everything holds for up to five influences; with six the largest may be dropped, because the weights are normalised in between (getWeights_largest_false)."
  },
  {
   "property": "C41",
   "status": "proved",
   "theorems": [
    "Verif.Conv.meshOf_spec",
    "Verif.Conv.convertObject_spec",
    "Verif.Conv.convertObject_nil_normal"
   ],
   "note": "Objects whose faces name existing vertices. Merging of UVs closer than a tolerance is part of the statement. A full list of normals with a missing one stops the export (convertObject_nil_normal)."
  },
  {
   "property": "C42",
   "status": "proved",
   "theorems": [
    "Verif.Conv.materialMap_spec",
    "Verif.Conv.materialMap_unknown",
    "Verif.Conv.meshOf_spec"
   ],
   "note": ""
  },
  {
   "property": "C43",
   "status": "proved",
   "theorems": [
    "Verif.Conv.addBoneNodes_spec",
    "Verif.Conv.parentsFirst_forest",
    "Verif.Conv.addBoneNodes_panics"
   ],
   "note": "A bone whose parent does not exist stops the export (addBoneNodes_panics)."
  },
  {
   "property": "C44",
   "status": "partial",
   "theorems": [
    "Verif.Conv.nodeParents_partial",
    "Verif.Conv.nodeParents_false",
    "Verif.Conv.nodeParents_matrix_false",
    "Verif.Conv.nodeParents_ignored"
   ],
   "note": "False for sequences that skip a depth."
  },
  {
   "property": "C45",
   "status": "partial",
   "theorems": [
    "Verif.Gltf.importMesh_spec",
    "Verif.Gltf.importMesh_partial",
    "Verif.Gltf.importMesh_false"
   ],
   "note": "Holds if at most one primitive has its own vertices or all primitives share theirs; false for any later primitive with own vertices (importMesh_false)."
  },
  {
   "property": "C46",
   "status": "proved",
   "theorems": [
    "Verif.Gltf.nodeWeights_spec"
   ],
   "note": ""
  },
  {
   "property": "C47",
   "status": "partial",
   "theorems": [
    "Verif.Gltf.fixAttrs_spec",
    "Verif.Gltf.fixAttrs_joints_partial",
    "Verif.Gltf.fixAttrs_offset_false",
    "Verif.Gltf.fixAttrs_interleaved_false"
   ],
   "note": "All bytes are widened and other views keep theirs; joint numbers are kept for accessors that start at the beginning of their view, but not for others, and other data in the same view breaks."
  },
  {
   "property": "C48",
   "status": "partial",
   "theorems": [
    "Verif.Gltf.applyTransform_positions_partial",
    "Verif.Gltf.applyTransform_rest_false"
   ],
   "note": "Positions are transformed exactly once; node translations, morph targets and bind matrices are never scaled (applyTransform_rest_false, for every matrix)."
  },
  {
   "property": "C49",
   "status": "proved",
   "theorems": [
    "Verif.Gltf.resetNodes_positions"
   ],
   "note": ""
  },
  {
   "property": "C50",
   "status": "proved",
   "theorems": [
    "Verif.Vrm.checkRequiredBones_spec",
    "Verif.Vrm.validateBones_spec",
    "Verif.Vrm.validateBones_vrm"
   ],
   "note": ""
  },
  {
   "property": "C51",
   "status": "partial",
   "theorems": [
    "Verif.Vrm.humanoidBones_spec",
    "Verif.Vrm.humanoidBones_node_partial",
    "Verif.Vrm.humanoidBones_exist",
    "Verif.Vrm.humanoidBones_mesh_false",
    "Verif.Vrm.validate_after_apply",
    "Verif.Vrm.nodeMap_spec"
   ],
   "note": "The fallback by name also takes nodes with meshes (humanoidBones_mesh_false)."
  },
  {
   "property": "C52",
   "status": "proved",
   "theorems": [
    "Verif.Vrm.springGroups_spec"
   ],
   "note": ""
  },
  {
   "property": "C53",
   "status": "proved",
   "theorems": [
    "Verif.Vrm.allMorphs_spec",
    "Verif.Vrm.targets_spec"
   ],
   "note": ""
  },
  {
   "property": "C54",
   "status": "partial",
   "theorems": [
    "Verif.Vrm.mergePreset_partial",
    "Verif.Vrm.mergePreset_none",
    "Verif.Vrm.mergePreset_false"
   ],
   "note": "A configuration without materialSettings crashes when its preset has some."
  },
  {
   "property": "C55",
   "status": "partial",
   "theorems": [
    "Verif.Unity.parseYaml_partial",
    "Verif.Unity.resolveTag_handle",
    "Verif.Unity.parseYaml_false",
    "Verif.Unity.parseYaml_tag_false"
   ],
   "note": "All streams whose last line has at least three characters; shorter last lines are lost, a bare handle as tag crashes. The text of a document is followed by the marker of the next."
  },
  {
   "property": "C56",
   "status": "proved",
   "theorems": [
    "Verif.Unity.builtinMesh_spec",
    "Verif.Unity.sphere_valid",
    "Verif.Unity.cylinder_valid",
    "Verif.Unity.capsule_valid"
   ],
   "note": "Supported range: at least 2 (cylinder: 3) segments and 2 rows."
  },
  {
   "property": "C57",
   "status": "partial",
   "theorems": [
    "Verif.Unity.extract_partial",
    "Verif.Unity.extract_noDots_partial",
    "Verif.Unity.extract_false"
   ],
   "note": "False for every directory: names with .. leave it."
  },
  {
   "property": "C58",
   "status": "proved",
   "theorems": [
    "Verif.Cmd.hide_spec",
    "Verif.Cmd.ancestor_iff"
   ],
   "note": ""
  },
  {
   "property": "C59",
   "status": "proved",
   "theorems": [
    "Verif.Cmd.rot180_spec",
    "Verif.Cmd.rot180_twice"
   ],
   "note": "Exact arithmetic. Objects; bones and plugins are not part of the second theorem."
  },
  {
   "property": "C60",
   "status": "proved",
   "theorems": [
    "Verif.Mmd.pmx_load_save_load",
    "Verif.Mmd.pmx_save_stable"
   ],
   "note": ""
  },
  {
   "property": "C61",
   "status": "proved",
   "theorems": [
    "Verif.Mmd.pmd_load"
   ],
   "note": "Shift-JIS decoding and float operations are parameters"
  },
  {
   "property": "C62",
   "status": "proved",
   "theorems": [
    "Verif.Mmd.parse_pmx",
    "Verif.Mmd.parse_pmd",
    "Verif.Mmd.pmx_save_parse",
    "Verif.Mmd.pmd_parse"
   ],
   "note": ""
  },
  {
   "property": "C63",
   "status": "proved",
   "theorems": [
    "Verif.Mmd.vmd_load"
   ],
   "note": "Shift-JIS decoding is a parameter that keeps the ASCII tag"
  },
  {
   "property": "C64",
   "status": "partial",
   "theorems": [
    "Verif.Mmd.vmd_truncated_false",
    "Verif.Mmd.vmd_truncated_partial"
   ],
   "note": "false for cuts inside the last morph weight; every other cut is reported"
  },
  {
   "property": "C65",
   "status": "partial",
   "theorems": [
    "Verif.Mqo.fixNames_keeps_unique_false",
    "Verif.Mqo.fixNames_keeps_first_partial"
   ],
   "note": "False of the code: a generated name can take the name of a later entry."
  },
  {
   "property": "C66",
   "status": "partial",
   "theorems": [
    "Verif.Mqo.setVertexWeight_loaded_false",
    "Verif.Mqo.setVertexWeight_loaded_partial"
   ],
   "note": "False of the code: a second group is made."
  },
  {
   "property": "C67",
   "status": "proved",
   "theorems": [
    "Verif.Mqo.normalTransform_dot",
    "Verif.Mqo.applyTransform_normals",
    "Verif.Mqo.applyTransform_mul"
   ],
   "note": ""
  },
  {
   "property": "C68",
   "status": "proved",
   "theorems": [
    "Verif.Mqo.object_triangulate",
    "Verif.Mqo.object_triangulate_idem"
   ],
   "note": ""
  },
  {
   "property": "C69",
   "status": "proved",
   "theorems": [
    "Verif.Mqo.fixNormals_spec"
   ],
   "note": ""
  },
  {
   "property": "C70",
   "status": "partial",
   "theorems": [
    "Verif.Mqo.clone_false",
    "Verif.Mqo.clone_partial"
   ],
   "note": "Normals and ids of faces are lost."
  },
  {
   "property": "C71",
   "status": "partial",
   "theorems": [
    "Verif.Mqo.vertexByID_range_partial",
    "Verif.Mqo.vertexByID_negative_false"
   ],
   "note": "Holds for ids from 1 up, false for negative ids."
  },
  {
   "property": "C72",
   "status": "partial",
   "theorems": [
    "Verif.Mqo.turning_spec_partial",
    "Verif.Mqo.turn_rigid",
    "Verif.Mqo.turn_blend",
    "Verif.Mqo.turn_others",
    "Verif.Mqo.turning_order_false",
    "Verif.Mqo.turn_full",
    "Verif.Mqo.turnWeight_sum"
   ],
   "note": "Holds if parents are listed before children, false otherwise. Morph targets and physics bodies are not modelled."
  },
  {
   "property": "C73",
   "status": "partial",
   "theorems": [
    "Verif.Fbx.addConnection_parent_false",
    "Verif.Fbx.loadConnection_world_partial"
   ],
   "note": "False of the code; holds for connections read from a file."
  },
  {
   "property": "C74",
   "status": "partial",
   "theorems": [
    "Verif.Fbx.setTranslation_stale_false",
    "Verif.Fbx.setTranslation_stale_witness",
    "Verif.Fbx.getMatrix_current_partial"
   ],
   "note": "False once the matrix has been asked for."
  },
  {
   "property": "C75",
   "status": "proved",
   "theorems": [
    "Verif.Fbx.coordMatrix_applyTo",
    "Verif.Fbx.coordMatrix_isometry",
    "Verif.Fbx.coordMatrix_panics"
   ],
   "note": ""
  },
  {
   "property": "C76",
   "status": "proved",
   "theorems": [
    "Verif.Fbx.parse_total"
   ],
   "note": "Memory is not modelled: announced sizes are allocated before reading."
  },
  {
   "property": "C77",
   "status": "partial",
   "theorems": [
    "Verif.Fbx.parse_truncated_false",
    "Verif.Fbx.parse_truncated_partial"
   ],
   "note": "False of the code: missing values come out as 0."
  },
  {
   "property": "C78",
   "status": "partial",
   "theorems": [
    "Verif.Conv.convertObjects_morph_partial",
    "Verif.Conv.convertObjects_morph_false"
   ],
   "note": "False when a morph names a vertex that no face uses: vertex 0 is moved."
  },
  {
   "property": "C79",
   "status": "partial",
   "theorems": [
    "Verif.Conv.toMmd_morphs_partial",
    "Verif.Conv.toMmd_morph_z_false"
   ],
   "note": "False of the code: the Z offset is always 0."
  },
  {
   "property": "C80",
   "status": "proved",
   "theorems": [
    "Verif.Conv.sourceVertex_weights",
    "Verif.Conv.toMmd_faces"
   ],
   "note": "toMmd_faces says the vertices are the sourceVertex of their corners."
  },
  {
   "property": "C81",
   "status": "partial",
   "theorems": [
    "Verif.Conv.sourceVertex_normal_false",
    "Verif.Conv.sourceVertex_normal_partial"
   ],
   "note": "False of the code: Z is not mirrored. Proved: X and Y are right, and so are normals along the XY plane."
  },
  {
   "property": "C82",
   "status": "proved",
   "theorems": [
    "Verif.Conv.bones_roundtrip",
    "Verif.Conv.mqoBone_inherits",
    "Verif.Conv.mqoBones_panics"
   ],
   "note": "Panics if a bone inherits from bone -1 (mqoBones_panics)."
  },
  {
   "property": "C83",
   "status": "partial",
   "theorems": [
    "Verif.Conv.vertexWeights_spec",
    "Verif.Conv.vertexWeights_morphBase_false",
    "Verif.Conv.vertexWeights_unknown_false"
   ],
   "note": "Holds for ordinary objects, false for the bases of morphs."
  },
  {
   "property": "C84",
   "status": "partial",
   "theorems": [
    "Verif.Conv.body_size_false",
    "Verif.Conv.body_size_roundtrip_false",
    "Verif.Conv.body_size_partial"
   ],
   "note": "False of the code for Z. Proved for X and Y and for the absolute value of Z."
  },
  {
   "property": "C85",
   "status": "proved",
   "theorems": [
    "Verif.Conv.inverseBind_identity"
   ],
   "note": ""
  },
  {
   "property": "C86",
   "status": "proved",
   "theorems": [
    "Verif.Conv.morphDeltas_spec"
   ],
   "note": ""
  },
  {
   "property": "C87",
   "status": "proved",
   "theorems": [
    "Verif.Gltf.export_import"
   ],
   "note": ""
  },
  {
   "property": "C88",
   "status": "proved",
   "theorems": [
    "Verif.Gltf.importBones_spec",
    "Verif.Gltf.importBones_total"
   ],
   "note": ""
  },
  {
   "property": "C89",
   "status": "partial",
   "theorems": [
    "Verif.Gltf.nodeWeights_spec",
    "Verif.Gltf.nodeWeights_times_false"
   ],
   "note": "Values are in the right slots; times are those of one channel only (nodeWeights_times_false)."
  },
  {
   "property": "C90",
   "status": "partial",
   "theorems": [
    "Verif.Gltf.resetNodes_rotations",
    "Verif.Gltf.resetBind_spec",
    "Verif.Gltf.reset_bind_pose",
    "Verif.Gltf.resetNodes_rotations_false"
   ],
   "note": "Holds if parents are listed before their children; false for deep chains listed the other way (resetNodes_rotations_false)."
  },
  {
   "property": "C91",
   "status": "partial",
   "theorems": [
    "Verif.Gltf.reset_unskinned_mesh_false",
    "Verif.Gltf.resetNodes_positions"
   ],
   "note": "False for every rotated node; only the position of the node itself is kept."
  },
  {
   "property": "C92",
   "status": "proved",
   "theorems": [
    "Verif.Gltf.applyTransform_bounds"
   ],
   "note": "Documents with numbers up to the largest float32; sparse accessors are not supported by the code."
  },
  {
   "property": "C93",
   "status": "partial",
   "theorems": [
    "Verif.Vrm.firstPerson_partial",
    "Verif.Vrm.firstPerson_false"
   ],
   "note": "-1 when the configuration suppresses the head."
  },
  {
   "property": "C94",
   "status": "proved",
   "theorems": [
    "Verif.Vrm.getVRM_spec"
   ],
   "note": ""
  },
  {
   "property": "C95",
   "status": "partial",
   "theorems": [
    "Verif.Vrm.springLen_spec",
    "Verif.Vrm.detectSprings_partial",
    "Verif.Vrm.detectSprings_false"
   ],
   "note": "Chains that start at a root node are compared with node 0."
  },
  {
   "property": "C96",
   "status": "partial",
   "theorems": [
    "Verif.Vrm.applyMorphs_partial",
    "Verif.Vrm.applyMorphs_false"
   ],
   "note": "Crashes for a mapping to a node without mesh."
  },
  {
   "property": "C97",
   "status": "proved",
   "theorems": [
    "Verif.Unity.sphere_closed",
    "Verif.Unity.cylinder_closed",
    "Verif.Unity.capsule_closed",
    "Verif.Unity.cube_closed"
   ],
   "note": ""
  },
  {
   "property": "C98",
   "status": "proved",
   "theorems": [
    "Verif.Unity.sphere_radius",
    "Verif.Unity.cylinder_shape",
    "Verif.Unity.capsule_shape"
   ],
   "note": "Exact real arithmetic."
  },
  {
   "property": "C99",
   "status": "partial",
   "theorems": [
    "Verif.Cmd.defaultOutput_partial",
    "Verif.Cmd.defaultOutput_false"
   ],
   "note": "-format with the type of the input overwrites the input."
  }
 ]
}
