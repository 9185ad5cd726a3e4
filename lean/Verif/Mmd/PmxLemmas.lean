import Verif.Mmd.PmxSpec

/-! Round trip of every PMX record. -/

namespace Verif.Mmd

open Verif.Geom

theorem attr_some {info : Bytes} {i : Nat} {sz : UInt8} (h : info[i]? = some sz) :
    attr info i = pure sz := by
  rw [attr, h]

theorem rt_index {info : Bytes} {i : Nat} {v : Int} (h : IdxOK info i v) :
    RT (writeIndex info i v) (readIndex info i) v := by
  obtain ⟨sz, h1, h2⟩ := h
  rw [writeIndex, readIndex, attr_some h1, pure_bind, pure_bind]
  exact rt_VInt sz v h2

theorem rt_uindex {info : Bytes} {i : Nat} {v : Int} (h : UIdxOK info i v) :
    RT (writeIndex info i v) (readUIndex info i) v := by
  obtain ⟨sz, h1, h2⟩ := h
  rw [writeIndex, readUIndex, attr_some h1, pure_bind, pure_bind]
  exact rt_VUInt sz v h2

theorem rt_emit (bs : Bytes) : RT (emit bs) (readBuf bs.length) (some bs) :=
  ⟨bs, wrote_emit bs, reads_buf bs⟩

/-- The header says that texts are UTF-8. -/
def Utf8 (info : Bytes) : Prop := ∃ e, info[0]? = some e ∧ e ≠ 0

theorem rt_text {info : Bytes} {t : Bytes} (hi : Utf8 info) (h : LenOK t) :
    RT (writeText t) (readText info) t := by
  obtain ⟨e, h1, h2⟩ := hi
  unfold writeText readText
  rw [attr_some h1]
  refine RT.seq (rt_int _ h) ?_
  rw [pure_bind, if_neg h2]
  exact (rt_emit t).last rfl

theorem rt_orDie {n : Nat} {bs : Bytes} (h : bs.length = n) : RT (emit bs) (readOrDie n) bs :=
  ⟨bs, wrote_emit bs, (reads_buf' n bs h).map rfl⟩

theorem decV4s_enc (l : List V4) : decV4s l.length (l.flatMap encV4) = l := by
  induction l with
  | nil => rfl
  | cons v l ih =>
    simp only [List.flatMap_cons, List.length_cons, decV4s]
    rw [List.take_append_of_le_length (by simp), List.take_of_length_le (by simp), decV4_encV4,
      List.drop_append_of_le_length (by simp), List.drop_of_length_le (by simp), List.nil_append, ih]

theorem flatMap_encV4_length (l : List V4) : (l.flatMap encV4).length = 16 * l.length := by
  induction l with
  | nil => rfl
  | cons v l ih => simp only [List.flatMap_cons, List.length_append, ih, encV4_length, List.length_cons]; ring

theorem flatMap_f32_length (l : List UInt32) : (l.flatMap f32Bytes).length = 4 * l.length := by
  induction l with
  | nil => rfl
  | cons v l ih => simp only [List.flatMap_cons, List.length_append, ih, f32Bytes_length, List.length_cons]; ring

theorem range_f32At (l : List UInt32) : (List.range l.length).map (f32At (l.flatMap f32Bytes)) = l := by
  induction l with
  | nil => rfl
  | cons v l ih =>
    simp only [List.length_cons, List.range_succ_eq_map, List.flatMap_cons, List.map_cons, f32At_zero,
      List.map_map]
    congr 1

theorem emit_flatMap_f32 (l : List UInt32) : emit (l.flatMap f32Bytes) = writeAll l writeFloat := by
  induction l with
  | nil => funext out; simp [emit, writeAll]; rfl
  | cons v l ih =>
    rw [writeAll, ← ih]
    funext out
    show _ = (writeFloat v out >>= fun p => emit _ p.2)
    show _ = Except.ok ((), out ++ leBytes 4 v.toNat ++ List.flatMap f32Bytes l)
    simp [emit, f32Bytes]

theorem rt_floats (l : List UInt32) : RT (emit (l.flatMap f32Bytes)) (readN l.length readFloat) l := by
  rw [emit_flatMap_f32]
  have := rt_all l writeFloat readFloat id fun a _ => rt_float a
  rwa [List.map_id] at this

theorem rt_indexes {info : Bytes} {i : Nat} {l : List Int} (h : ∀ b ∈ l, IdxOK info i b) :
    RT (writeAll l (writeIndex info i)) (readN l.length (readIndex info i)) l := by
  have := rt_all l (writeIndex info i) (readIndex info i) id fun a ha => rt_index (h a ha)
  rwa [List.map_id] at this

/-- `RT.seq` followed by reassociation, for two-part writers on the left. -/
theorem RT.seqAssoc {α β : Type} {w1 w2 w3 : Wr Unit} {r1 : Rd α} {r2 : α → Rd β} {a : α} {b : β}
    (h1 : RT (w1 >>= fun _ => w2) r1 a) (h2 : RT w3 (r2 a) b) :
    RT (w1 >>= fun _ => w2 >>= fun _ => w3) (r1 >>= r2) b := by
  have := RT.seq h1 h2
  rwa [bind_assoc] at this

theorem rt_weights (sub1 : UInt32 → UInt32) {info : Bytes} (b : List Int) (w : List UInt32)
    (shape : (w.length ≤ 4 ∧ b.length = w.length) ∨ (w.length = 11 ∧ b.length = 2))
    (idx : ∀ x ∈ b, IdxOK info attrBone x)
    (pad : w.length = 0 ∨ w.length = 3 → IdxOK info attrBone (-1)) :
    RT (writeAll (padWeights b w).1 (writeIndex info attrBone) >>= fun _ =>
        if weightType w.length = 0 then pure ()
        else if weightType w.length = 1 then writeFloat ((padWeights b w).2.headD 0)
        else if weightType w.length = 3 then do
          writeFloat ((padWeights b w).2.headD 0)
          emit (((padWeights b w).2.drop 2).flatMap f32Bytes)
        else emit ((padWeights b w).2.flatMap f32Bytes))
      (readWeights sub1 info (weightType w.length)) (weightsBack sub1 b w) := by
  rcases shape with ⟨h4, hb⟩ | ⟨h11, hb⟩
  · match w, b, hb with
    | [], [], _ =>
      have hp := pad (by simp)
      refine RT.unit ?_
      exact RT.unit (RT.last (rt_index hp) rfl)
    | [_], [x], _ =>
      refine RT.unit ?_
      exact RT.unit (RT.last (rt_index (idx x (by simp))) rfl)
    | [w0, _], [x, y], _ =>
      show RT (((writeIndex info attrBone x) >>= fun _ => (writeIndex info attrBone y) >>= fun _ => pure ()) >>= fun _ => writeFloat w0) (readIndex info attrBone >>= fun b0 => readIndex info attrBone >>= fun b1 => readFloat >>= fun w => pure ([b0, b1], [w, sub1 w])) _
      simp only [bind_assoc, pure_bind]
      refine RT.seq (rt_index (idx x (by simp))) ?_
      refine RT.seq (rt_index (idx y (by simp))) ?_
      exact RT.last (rt_float w0) rfl
    | [w0, w1, w2], [x, y, z], _ =>
      have hp := pad (by simp)
      refine RT.seq (rt_indexes (l := [x, y, z, -1]) ?_) ?_
      · intro u hu
        simp only [List.mem_cons, List.not_mem_nil, or_false] at hu
        rcases hu with rfl | rfl | rfl | rfl
        · exact idx _ (by simp)
        · exact idx _ (by simp)
        · exact idx _ (by simp)
        · exact hp
      · exact RT.last (rt_floats [w0, w1, w2, 0]) rfl
    | [w0, w1, w2, w3], [x, y, z, t], _ =>
      refine RT.seq (rt_indexes (l := [x, y, z, t]) idx) ?_
      exact RT.last (rt_floats [w0, w1, w2, w3]) rfl
    | _ :: _ :: _ :: _ :: _ :: _, _, _ => simp at h4
  · match b, hb with
    | [x, y], _ =>
      match w, h11 with
      | w0 :: w1 :: rest, h11 =>
        have hr : rest.length = 9 := by simpa using h11
        have e1 : weightType (w0 :: w1 :: rest).length = 3 := by rw [h11]; rfl
        have e2 : padWeights [x, y] (w0 :: w1 :: rest) = ([x, y], w0 :: w1 :: rest) := by
          rw [padWeights, if_neg (by rw [h11]; norm_num)]
        have e3 : weightsBack sub1 [x, y] (w0 :: w1 :: rest) = ([x, y], w0 :: sub1 w0 :: rest) := by
          rw [weightsBack]; simp [hr]
        rw [e1, e2, e3]
        show RT (((writeIndex info attrBone x) >>= fun _ => (writeIndex info attrBone y) >>= fun _ => pure ()) >>= fun _ => writeFloat w0 >>= fun _ => emit (rest.flatMap f32Bytes)) (readIndex info attrBone >>= fun b0 => readIndex info attrBone >>= fun b1 => readFloat >>= fun w => readBuf 36 >>= _) _
        simp only [bind_assoc, pure_bind]
        refine RT.seq (rt_index (idx x (by simp))) ?_
        refine RT.seq (rt_index (idx y (by simp))) ?_
        refine RT.seq (rt_float w0) ?_
        refine RT.last (a := some (rest.flatMap f32Bytes)) ?_ ?_
        · exact ⟨_, wrote_emit _, reads_buf' 36 _ (by rw [flatMap_f32_length, hr])⟩
        · simp only
          have := range_f32At rest
          rw [hr] at this
          rw [this]

theorem rt_vertex (sub1 : UInt32 → UInt32) {info : Bytes} {v : Vertex} (h : VertexOK info v) :
    RT (writeVertex info v) (readVertex sub1 info) (vertexBack sub1 v) := by
  obtain ⟨⟨n, hn, hl⟩, shape, idx, pad⟩ := h
  unfold writeVertex readVertex
  refine RT.seq (rt_orDie (by simp)) ?_
  refine RT.seq (rt_orDie (by simp)) ?_
  refine RT.seq (rt_orDie (by simp)) ?_
  rw [attr_some hn, pure_bind]
  refine RT.seq (rt_orDie (by rw [flatMap_encV4_length, hl])) ?_
  refine RT.seq (rt_U8 _) ?_
  refine RT.seqAssoc (rt_weights sub1 v.bones v.weights shape idx pad) ?_
  refine RT.last (rt_float _) ?_
  simp only [decV3_encV3, decV2_encV2, vertexBack, ← hl, decV4s_enc]

theorem rt_face {info : Bytes} {f : Face} (h : FaceOK info f) :
    RT (writeFace info f) (readFace info) f := by
  unfold writeFace readFace
  refine RT.seq (rt_uindex h.a) ?_
  refine RT.seq (rt_uindex h.b) ?_
  exact RT.last (rt_uindex h.c) rfl

theorem rt_int' {v : Int} (h : U32OK v) : RT (writeInt v) readInt v.toNat := by
  have := rt_int v.toNat (by have := h.1; have := h.2; omega)
  rwa [Int.toNat_of_nonneg h.1] at this

theorem toNat_U32 {v : Int} (h : U32OK v) : ((v.toNat : Nat) : Int) = v := Int.toNat_of_nonneg h.1

theorem rt_material {info : Bytes} {m : Material} (hi : Utf8 info) (h : MaterialOK info m) :
    RT (writeMaterial info m) (readMaterial info) m := by
  unfold writeMaterial readMaterial
  refine RT.seq (rt_text hi h.name) ?_
  refine RT.seq (rt_text hi h.nameEn) ?_
  refine RT.seq (rt_V4 _) ?_
  refine RT.seq (rt_V3 _) ?_
  refine RT.seq (rt_float _) ?_
  refine RT.seq (rt_V3 _) ?_
  refine RT.seq (rt_U8 _) ?_
  refine RT.seq (rt_V4 _) ?_
  refine RT.seq (rt_float _) ?_
  refine RT.seq (rt_index h.texture) ?_
  refine RT.seq (rt_index h.env) ?_
  refine RT.seq (rt_U8 _) ?_
  refine RT.seq (rt_U8 _) ?_
  refine RT.seq (a := m.toon) ?_ ?_
  · have := h.toon
    by_cases ht : m.toonType = 0
    · simp only [if_pos ht] at this ⊢
      exact rt_index this
    · simp only [if_neg ht] at this ⊢
      refine RT.last (rt_U8 _) ?_
      congr 1
      rw [UInt8.toNat_ofNat']
      omega
  refine RT.seq (rt_text hi h.memo) ?_
  refine RT.last (rt_int' h.count) ?_
  rw [toNat_U32 h.count]

theorem rt_link {info : Bytes} {l : Link} (h : IdxOK info attrBone l.targetID) :
    RT (writeLink info l) (readLink info) (linkBack l) := by
  obtain ⟨t, has, mx, mn⟩ := l
  unfold writeLink readLink
  refine RT.seq (rt_index h) ?_
  cases has
  · refine RT.last (rt_U8 0) rfl
  · refine RT.seq (rt_U8 1) ?_
    refine RT.seq (rt_V3 _) ?_
    exact RT.last (rt_V3 _) rfl

theorem rt_ik {info : Bytes} {k : IK} (h : IKOK info k) :
    RT (writeIK info k) (readIK info) { k with links := k.links.map linkBack } := by
  unfold writeIK readIK
  refine RT.seq (rt_index h.target) ?_
  refine RT.seq (rt_int' h.loop) ?_
  refine RT.seq (rt_float _) ?_
  refine RT.seq (rt_int _ h.len) ?_
  refine RT.last (rt_all _ _ _ linkBack fun l hl => rt_link (h.links l hl)) ?_
  rw [toNat_U32 h.loop]

theorem rt_bone {info : Bytes} {b : Bone} (hi : Utf8 info) (h : BoneOK info b) :
    RT (writeBone info b) (readBone info) (boneBack b) := by
  unfold writeBone readBone
  refine RT.seq (rt_text hi h.name) ?_
  refine RT.seq (rt_text hi h.nameEn) ?_
  refine RT.seq (rt_V3 _) ?_
  refine RT.seq (rt_index h.parent) ?_
  refine RT.seq (rt_int' h.layer) ?_
  refine RT.seq (rt_U16 _) ?_
  refine RT.seq (a := ((boneBack b).tailID, (boneBack b).tailPos)) ?_ ?_
  · have ht := h.tail
    simp only [boneBack]
    split
    · rename_i hf
      exact RT.last (rt_index (ht hf)) (by simp)
    · exact RT.last (rt_V3 _) (by simp)
  refine RT.seq (a := ((boneBack b).inheritParentID, (boneBack b).inheritParentInfluence)) ?_ ?_
  · have ht := h.inherit
    simp only [boneBack]
    split
    · rename_i hf
      refine RT.seq (rt_index (ht hf)) ?_
      exact RT.last (rt_float _) (by simp)
    · exact RT.pure _
  refine RT.seq (a := (boneBack b).fixedAxis) ?_ ?_
  · simp only [boneBack]
    split
    · exact rt_V3 _
    · exact RT.pure _
  refine RT.seq (a := V3.zero) ?_ ?_
  · split
    · exact RT.seq (rt_V3 _) (rt_V3 _)
    · exact RT.pure _
  have hext : ∃ e, RT (if hasFlag b.flags 8192 then writeIndex info attrBone (-1) else pure ())
      (if hasFlag b.flags 8192 then readIndex info attrBone else pure 0) e := by
    split
    · rename_i hf
      obtain ⟨sz, hsz⟩ := h.ext hf
      by_cases hs : sz = 1 ∨ sz = 2 ∨ sz = 4
      · refine ⟨-1, rt_index ⟨sz, hsz, ?_⟩⟩
        rcases hs with rfl | rfl | rfl <;> decide
      · refine ⟨0, ?_⟩
        rw [writeIndex, readIndex, attr_some hsz, pure_bind, pure_bind, writeVInt, readVInt]
        simp only [not_or] at hs
        simp only [hs.1, hs.2.1, hs.2.2, if_false]
        exact RT.pure 0
    · exact ⟨0, RT.pure 0⟩
  obtain ⟨e, he⟩ := hext
  refine RT.seq he ?_
  refine RT.last (a := (boneBack b).ik) ?_ ?_
  · have ht := h.ik
    simp only [boneBack]
    split
    · rename_i hf
      exact rt_ik (ht hf)
    · exact RT.pure _
  · simp only [toNat_U32 h.layer]
    rfl

theorem rt_morphGroup {info : Bytes} {m : MorphGroup} (h : IdxOK info attrMorph m.target) :
    RT (writeMorphGroup info m) (readMorphGroup info) m :=
  RT.seq (rt_index h) (RT.last (rt_float _) rfl)

theorem rt_morphVertex {info : Bytes} {m : MorphVertex} (h : UIdxOK info attrVert m.target) :
    RT (writeMorphVertex info m) (readMorphVertex info) m :=
  RT.seq (rt_uindex h) (RT.last (rt_V3 _) rfl)

theorem rt_morphUV {info : Bytes} {m : MorphUV} (h : UIdxOK info attrVert m.target) :
    RT (writeMorphUV info m) (readMorphUV info) m :=
  RT.seq (rt_uindex h) (RT.last (rt_V4 _) rfl)

theorem rt_morphMaterial {info : Bytes} {m : MorphMaterial} (h : IdxOK info attrMat m.target) :
    RT (writeMorphMaterial info m) (readMorphMaterial info) m :=
  RT.seq (rt_index h) <| RT.seq (rt_U8 _) <| RT.seq (rt_V4 _) <| RT.seq (rt_V3 _) <|
  RT.seq (rt_float _) <| RT.seq (rt_V3 _) <| RT.seq (rt_V4 _) <| RT.seq (rt_float _) <|
  RT.seq (rt_V4 _) <| RT.seq (rt_V4 _) <| RT.last (rt_V4 _) rfl

theorem rt_all_id {α : Type} (l : List α) (w : α → Wr Unit) (r : Rd α)
    (h : ∀ a ∈ l, RT (w a) r a) : RT (writeAll l w) (readN l.length r) l := by
  have := rt_all l w r id h
  rwa [List.map_id] at this

theorem rt_morph {info : Bytes} {m : Morph} (hi : Utf8 info) (h : MorphOK info m) :
    RT (writeMorph info m) (readMorph info) m := by
  unfold writeMorph readMorph
  refine RT.seq (rt_text hi h.name) ?_
  refine RT.seq (rt_text hi h.nameEn) ?_
  refine RT.seq (rt_U8 _) ?_
  refine RT.seq (rt_U8 _) ?_
  obtain ⟨name, nameEn, panel, ty, g, v, u, mt⟩ := m
  obtain ⟨-, -, ⟨hg, hgl, hgi⟩, ⟨hv, hvl, hvi⟩, ⟨hu, hul, hui⟩, ⟨hm, hml, hmi⟩⟩ := h
  simp only at *
  by_cases t0 : ty = 0
  · subst t0
    replace hv : v = [] := by simpa using hv
    replace hu : u = [] := by simpa using hu
    replace hm : mt = [] := by simpa using hm
    subst hv hu hm
    simp only [List.length_nil, Nat.cast_zero, add_zero, writeAll, bind_pure_unit]
    refine RT.seq (rt_int _ hgl) ?_
    simp only [if_true]
    exact RT.last (rt_all_id _ _ _ fun a ha => rt_morphGroup (hgi a ha)) rfl
  replace hg : g = [] := by simpa [t0] using hg
  subst hg
  by_cases t1 : ty = 1
  · subst t1
    replace hu : u = [] := by simpa using hu
    replace hm : mt = [] := by simpa using hm
    subst hu hm
    simp only [List.length_nil, Nat.cast_zero, add_zero, zero_add, writeAll, bind_pure_unit, pure_bind]
    refine RT.seq (rt_int _ hvl) ?_
    rw [if_neg (by decide), if_pos trivial]
    exact RT.last (rt_all_id _ _ _ fun a ha => rt_morphVertex (hvi a ha)) rfl
  replace hv : v = [] := by simpa [t1] using hv
  subst hv
  by_cases t3 : ty = 3
  · subst t3
    replace hm : mt = [] := by simpa using hm
    subst hm
    simp only [List.length_nil, Nat.cast_zero, add_zero, zero_add, writeAll, bind_pure_unit, pure_bind]
    refine RT.seq (rt_int _ hul) ?_
    rw [if_neg (by decide), if_neg (by decide), if_neg (by decide), if_pos trivial]
    exact RT.last (rt_all_id _ _ _ fun a ha => rt_morphUV (hui a ha)) rfl
  replace hu : u = [] := by simpa [t3] using hu
  subst hu
  by_cases t8 : ty = 8
  · subst t8
    simp only [List.length_nil, Nat.cast_zero, add_zero, zero_add, writeAll, pure_bind]
    refine RT.seq (rt_int _ hml) ?_
    rw [if_neg (by decide), if_neg (by decide), if_neg (by decide), if_neg (by decide), if_pos trivial]
    exact RT.last (rt_all_id _ _ _ fun a ha => rt_morphMaterial (hmi a ha)) rfl
  replace hm : mt = [] := by simpa [t8] using hm
  subst hm
  simp only [List.length_nil, Nat.cast_zero, add_zero, writeAll, bind_pure_unit]
  refine RT.last (rt_int 0 (by norm_num)) ?_
  simp only [t0, t1, t3, t8, if_false, if_true, readN]
  split <;> rfl

theorem rt_body {info : Bytes} {b : RigidBody} (hi : Utf8 info) (h : BodyOK info b) :
    RT (writeBody info b) (readRigidBody info) b :=
  RT.seq (rt_text hi h.name) <| RT.seq (rt_text hi h.nameEn) <| RT.seq (rt_index h.bone) <|
  RT.seq (rt_VInt _ _ h.group) <| RT.seq (rt_VInt _ _ h.groupTarget) <| RT.seq (rt_U8 _) <|
  RT.seq (rt_V3 _) <| RT.seq (rt_V3 _) <| RT.seq (rt_V3 _) <| RT.seq (rt_float _) <|
  RT.seq (rt_float _) <| RT.seq (rt_float _) <| RT.seq (rt_float _) <| RT.seq (rt_float _) <|
  RT.last (rt_U8 _) rfl

theorem rt_index_same {info : Bytes} {v : Int} (hs : info[attrBone]? = info[attrRB]?)
    (h : IdxOK info attrRB v) : RT (writeIndex info attrBone v) (readIndex info attrRB) v := by
  have := rt_index h
  rwa [writeIndex, show attr info attrRB = attr info attrBone by rw [attr, attr, hs]] at this

theorem rt_joint {info : Bytes} {j : Joint} (hi : Utf8 info) (h : JointOK info j) :
    RT (writeJoint info j) (readJoint info) j :=
  RT.seq (rt_text hi h.name) <| RT.seq (rt_text hi h.nameEn) <| RT.seq (rt_U8 _) <|
  RT.seq (rt_index_same h.sameSize h.body1) <| RT.seq (rt_index_same h.sameSize h.body2) <|
  RT.seq (rt_V3 _) <| RT.seq (rt_V3 _) <| RT.seq (rt_V3 _) <| RT.seq (rt_V3 _) <|
  RT.seq (rt_V3 _) <| RT.seq (rt_V3 _) <| RT.seq (rt_V3 _) <| RT.last (rt_V3 _) rfl

theorem rt_section_id {α : Type} (l : List α) (w : α → Wr Unit) (r : Rd α) (hl : LenOK l)
    (h : ∀ a ∈ l, RT (w a) r a) : RT (writeSection l w) (readSection r) l := by
  have := rt_section l w r id hl h
  rwa [List.map_id] at this

/-! Only the first entry of the header info changes when writing, and no index uses it. -/

theorem info_succ (e e' : UInt8) (rest : Bytes) (i : Nat) :
    (e' :: rest)[i + 1]? = (e :: rest)[i + 1]? := by simp

theorem rt_document_body (sub1 : UInt32 → UInt32) (d : Document) (e : UInt8) (rest : Bytes)
    (hinfo : d.header.info = e :: rest) (h : DocOK d) :
    RT (writeContent d (1 :: rest))
      (parseContent sub1 ⟨pmxMagic, d.header.version, 1 :: rest⟩)
      (docBack sub1 d) := by
  unfold writeContent parseContent
  have hi : Utf8 (1 :: rest) := ⟨1, rfl, by decide⟩
  have key : ∀ i, (1 :: rest)[i + 1]? = d.header.info[i + 1]? := by
    intro i; rw [hinfo]; exact info_succ _ _ _ _
  have idx : ∀ i v, IdxOK d.header.info (i + 1) v → IdxOK (1 :: rest) (i + 1) v := by
    rintro i v ⟨sz, h1, h2⟩; exact ⟨sz, by rw [key, h1], h2⟩
  have uidx : ∀ i v, UIdxOK d.header.info (i + 1) v → UIdxOK (1 :: rest) (i + 1) v := by
    rintro i v ⟨sz, h1, h2⟩; exact ⟨sz, by rw [key, h1], h2⟩
  refine RT.seq (rt_text hi h.texts.1) ?_
  refine RT.seq (rt_text hi h.texts.2.1) ?_
  refine RT.seq (rt_text hi h.texts.2.2.1) ?_
  refine RT.seq (rt_text hi h.texts.2.2.2) ?_
  refine RT.seq (rt_section _ _ _ (vertexBack sub1) h.counts.1 fun v hv => rt_vertex sub1 ?_) ?_
  · obtain ⟨⟨n, h1, h2⟩, h3, h4, h5⟩ := h.vertexes v hv
    exact ⟨⟨n, by rw [attrExtUV, key]; exact h1, h2⟩, h3, fun b hb => idx 4 b (h4 b hb),
      fun hp => idx 4 _ (h5 hp)⟩
  refine RT.seq (rt_int _ h.counts.2.1) ?_
  rw [Nat.mul_div_cancel _ (by norm_num)]
  refine RT.seq (rt_all_id _ _ _ fun f hf => rt_face ?_) ?_
  · obtain ⟨h1, h2, h3⟩ := h.faces f hf
    exact ⟨uidx 1 _ h1, uidx 1 _ h2, uidx 1 _ h3⟩
  refine RT.seq (rt_section_id _ _ _ h.counts.2.2.1 fun t ht => rt_text hi (h.textures t ht)) ?_
  refine RT.seq (rt_section_id _ _ _ h.counts.2.2.2.1 fun m hm => rt_material hi ?_) ?_
  · obtain ⟨h1, h2, h3, h4, h5, h6, h7⟩ := h.materials m hm
    refine ⟨h1, h2, idx 2 _ h3, idx 2 _ h4, ?_, h6, h7⟩
    split
    · rename_i ht; rw [if_pos ht] at h5; exact idx 2 _ h5
    · rename_i ht; rwa [if_neg ht] at h5
  refine RT.seq (rt_section _ _ _ boneBack h.counts.2.2.2.2.1 fun b hb => rt_bone hi ?_) ?_
  · obtain ⟨h1, h2, h3, h4, h5, h6, h7, h8⟩ := h.bones b hb
    refine ⟨h1, h2, idx 4 _ h3, h4, fun hf => idx 4 _ (h5 hf), fun hf => idx 4 _ (h6 hf), ?_, ?_⟩
    · intro hf; obtain ⟨sz, h9⟩ := h7 hf; exact ⟨sz, by rw [attrBone, key]; exact h9⟩
    · intro hf; obtain ⟨k1, k2, k3, k4⟩ := h8 hf
      exact ⟨idx 4 _ k1, k2, k3, fun l hl => idx 4 _ (k4 l hl)⟩
  refine RT.seq (rt_section_id _ _ _ h.counts.2.2.2.2.2.1 fun m hm => rt_morph hi ?_) ?_
  · obtain ⟨h1, h2, ⟨g1, g2, g3⟩, ⟨v1, v2, v3⟩, ⟨u1, u2, u3⟩, ⟨m1, m2, m3⟩⟩ := h.morphs m hm
    exact ⟨h1, h2, ⟨g1, g2, fun g hg => idx 5 _ (g3 g hg)⟩, ⟨v1, v2, fun g hg => uidx 1 _ (v3 g hg)⟩,
      ⟨u1, u2, fun g hg => uidx 1 _ (u3 g hg)⟩, ⟨m1, m2, fun g hg => idx 3 _ (m3 g hg)⟩⟩
  refine RT.seq (a := []) (RT.last (rt_int 0 (by norm_num)) rfl) ?_
  refine RT.seq (rt_section_id _ _ _ h.counts.2.2.2.2.2.2.1 fun b hb => rt_body hi ?_) ?_
  · obtain ⟨h1, h2, h3, h4, h5⟩ := h.bodies b hb
    exact ⟨h1, h2, idx 4 _ h3, h4, h5⟩
  refine RT.last (rt_section_id _ _ _ h.counts.2.2.2.2.2.2.2 fun j hj => rt_joint hi ?_) ?_
  · obtain ⟨h1, h2, h3, h4, h5⟩ := h.joints j hj
    exact ⟨h1, h2, idx 6 _ h3, idx 6 _ h4, by rw [attrBone, attrRB, key, key]; exact h5⟩
  · rw [docBack, hinfo]; rfl

end Verif.Mmd
