import Verif.Mmd.PmxLemmas

/-!
C10 to C14 and C17: PMX indexes, texts, documents, joints, vertices and truncated files.
-/

namespace Verif.Mmd

open Verif.Geom

/-! ## C10 -/

/-- C10. An index that fits the declared size (1, 2 or 4 bytes; -1 fits all of them) is read back,
and reader and writer agree on the number of bytes, whatever follows in the file. -/
theorem pmx_index_roundtrip (info : Bytes) (i : Nat) (v : Int) (h : IdxOK info i v) :
    ∃ bs : Bytes, (∀ out, writeIndex info i v out = .ok ((), out ++ bs)) ∧
      (∀ rest, readIndex info i (bs ++ rest) = .ok (v, rest)) := rt_index h

/-- C10 for vertex indexes, which are written as signed and read as unsigned numbers. -/
theorem pmx_vertex_index_roundtrip (info : Bytes) (i : Nat) (v : Int) (h : UIdxOK info i v) :
    ∃ bs : Bytes, (∀ out, writeIndex info i v out = .ok ((), out ++ bs)) ∧
      (∀ rest, readUIndex info i (bs ++ rest) = .ok (v, rest)) := rt_uindex h

/-- C10. The number of bytes is the declared size. -/
theorem pmx_index_size (sz : UInt8) (v : Int) (h : sz = 1 ∨ sz = 2 ∨ sz = 4) (out : Bytes) :
    ∃ bs : Bytes, writeVInt sz v out = .ok ((), out ++ bs) ∧ bs.length = sz.toNat := by
  rcases h with rfl | rfl | rfl
  · exact ⟨intBytes 1 v, rfl, by simp [intBytes]⟩
  · exact ⟨intBytes 2 v, rfl, by simp [intBytes]⟩
  · exact ⟨intBytes 4 v, rfl, by simp [intBytes]⟩

/-- `-1` (none) fits every size; 200 fits one unsigned byte; -128 and 127 are the borders. -/
example : (∀ sz : UInt8, sz = 1 ∨ sz = 2 ∨ sz = 4 → SFits sz (-1)) ∧ UFits 1 200 ∧
    SFits 1 (-128) ∧ SFits 1 127 ∧ ¬ SFits 1 128 := by
  refine ⟨?_, by decide, by decide, by decide, by decide⟩
  rintro sz (rfl | rfl | rfl) <;> decide

/-! ## C11 -/

/-- C11. Any text shorter than 4 GiB is read back byte by byte, whatever follows. -/
theorem pmx_text_roundtrip (info : Bytes) (e : UInt8) (he : info[0]? = some e) (hn : e ≠ 0)
    (t : Bytes) (h : t.length < 2 ^ 32) :
    ∃ bs : Bytes, (∀ out, writeText t out = .ok ((), out ++ bs)) ∧
      (∀ rest, readText info (bs ++ rest) = .ok (t, rest)) := rt_text ⟨e, he, hn⟩ h

/-- UTF-16 code units of a Unicode scalar value (the standard definition). -/
def utf16Units (c : Char) : List Nat :=
  if c.toNat < 0x10000 then [c.toNat]
  else [0xd800 + (c.toNat - 0x10000) / 1024, 0xdc00 + (c.toNat - 0x10000) % 1024]

/-- Code units as little-endian bytes. -/
def unitBytes (l : List Nat) : Bytes := l.flatMap (leBytes 2)

theorem units_unitBytes (l : List Nat) (h : ∀ u ∈ l, u < 65536) : units (unitBytes l) = l := by
  induction l with
  | nil => rfl
  | cons u l ih =>
    have hu := h u (by simp)
    have : unitBytes (u :: l) = UInt8.ofNat u :: UInt8.ofNat (u / 256) :: unitBytes l := rfl
    rw [this, units, ih fun v hv => h v (by simp [hv]), UInt8.toNat_ofNat', UInt8.toNat_ofNat']
    congr 1
    omega

theorem char_range (c : Char) : c.toNat < 0xd800 ∨ (0xdfff < c.toNat ∧ c.toNat < 0x110000) := c.valid

theorem utf16Decode_cons_bmp (a : Nat) (rest : List Nat) (h : a < 0xd800 ∨ 0xdfff < a) :
    utf16Decode (a :: rest) = a :: utf16Decode rest := by
  cases rest with
  | nil => simp only [utf16Decode]; rw [if_neg (by omega)]
  | cons b rest => rw [utf16Decode, if_neg (by omega), if_neg (by omega)]

theorem utf16Decode_encode (cs : List Char) :
    utf16Decode (cs.flatMap utf16Units) = cs.map Char.toNat := by
  induction cs with
  | nil => rfl
  | cons c cs ih =>
    have hc := char_range c
    simp only [List.flatMap_cons, List.map_cons, utf16Units]
    split
    · rename_i h
      rw [List.singleton_append, utf16Decode_cons_bmp _ _ (by omega), ih]
    · rename_i h
      rw [List.cons_append, List.singleton_append, utf16Decode, if_pos (by omega), ih]
      congr 1
      omega

theorem utf16Units_lt (cs : List Char) : ∀ u ∈ cs.flatMap utf16Units, u < 65536 := by
  intro u hu
  rw [List.mem_flatMap] at hu
  obtain ⟨c, -, hu⟩ := hu
  have hc := char_range c
  rw [utf16Units] at hu
  split at hu <;> simp at hu <;> omega

theorem utf8Rune_char (c : Char) : utf8Rune c.toNat = String.utf8EncodeChar c := by
  have hc := char_range c
  show utf8Rune c.val.toNat = _
  replace hc : c.val.toNat < 0xd800 ∨ (0xdfff < c.val.toNat ∧ c.val.toNat < 0x110000) := hc
  simp only [String.utf8EncodeChar, utf8Rune]
  generalize c.val.toNat = v at hc
  by_cases h1 : v < 0x80
  · rw [if_pos h1, if_pos (show v ≤ 127 by omega)]
  rw [if_neg h1, if_neg (show ¬ v ≤ 127 by omega)]
  by_cases h2 : v < 0x800
  · rw [if_pos h2, if_pos (show v ≤ 2047 by omega),
      show 0xc0 + v / 64 = v / 64 % 32 + 192 by omega,
      show 0x80 + v % 64 = v % 64 + 128 by omega]
  rw [if_neg h2, if_neg (show ¬ v ≤ 2047 by omega)]
  by_cases h3 : v < 0x10000
  · rw [if_pos h3, if_pos (show v ≤ 65535 by omega),
      show 0xe0 + v / 4096 = v / 4096 % 16 + 224 by omega,
      show 0x80 + v / 64 % 64 = v / 64 % 64 + 128 by omega,
      show 0x80 + v % 64 = v % 64 + 128 by omega]
  · rw [if_neg h3, if_neg (show ¬ v ≤ 65535 by omega),
      show 0xf0 + v / 262144 = v / 262144 % 8 + 240 by omega,
      show 0x80 + v / 4096 % 64 = v / 4096 % 64 + 128 by omega,
      show 0x80 + v / 64 % 64 = v / 64 % 64 + 128 by omega,
      show 0x80 + v % 64 = v % 64 + 128 by omega]

/-- C11, text mode 0. The UTF-16 (little endian) bytes of any Unicode text are read as the UTF-8
bytes of the same text, and the reader stops at its end. -/
theorem pmx_text_utf16 (info : Bytes) (he : info[0]? = some 0) (cs : List Char) (rest : Bytes)
    (h : (unitBytes (cs.flatMap utf16Units)).length < 2 ^ 32) :
    readText info (leBytes 4 (unitBytes (cs.flatMap utf16Units)).length ++
        (unitBytes (cs.flatMap utf16Units) ++ rest)) =
      .ok (cs.flatMap String.utf8EncodeChar, rest) := by
  set bs := unitBytes (cs.flatMap utf16Units) with hbs
  have heven : bs.length / 2 * 2 = bs.length := by
    have : bs.length = 2 * (cs.flatMap utf16Units).length := by
      rw [hbs, unitBytes]
      generalize cs.flatMap utf16Units = l
      induction l with
      | nil => rfl
      | cons u l ih => simp only [List.flatMap_cons, List.length_append, ih, leBytes_length, List.length_cons]; omega
    omega
  have h1 : Reads readInt (leBytes 4 bs.length) bs.length := by
    have := reads_LE 4 (leBytes 4 bs.length) (by simp)
    rwa [ofLe_leBytes, Nat.mod_eq_of_lt (by norm_num at h ⊢; omega)] at this
  have h2 : Reads (readText info) (leBytes 4 bs.length ++ bs) (cs.flatMap String.utf8EncodeChar) := by
    unfold readText
    refine h1.bind ?_
    rw [attr_some he, pure_bind, if_pos rfl, heven]
    refine (reads_buf bs).map ?_
    simp only [Option.getD_some]
    rw [hbs, units_unitBytes _ (utf16Units_lt cs), utf16Decode_encode, List.flatMap_map]
    congr 1
    simp only [List.flatMap, utf8Rune_char]
  have := h2 rest
  rwa [List.append_assoc] at this

/-- A text outside the basic plane: two code units, four UTF-8 bytes. -/
example : utf16Units '😀' = [0xd83d, 0xde00] ∧
    String.utf8EncodeChar '😀' = [0xf0, 0x9f, 0x98, 0x80] := by decide

/-! ## C12 -/

theorem reads_header (version : UInt32) (info : Bytes) (h : info.length < 256) :
    Reads (readHeader none) (pmxMagic ++ (f32Bytes version ++ ([UInt8.ofNat info.length] ++ info)))
      ⟨pmxMagic, version, info⟩ := by
  have hn : (UInt8.ofNat info.length).toNat = info.length := by
    rw [UInt8.toNat_ofNat']; omega
  unfold readHeader
  refine Reads.bind (a := pmxMagic) ?_ ?_
  · exact (reads_buf' 4 pmxMagic rfl).map rfl
  rw [if_neg (by simp)]
  refine Reads.bind ((reads_LE 4 (f32Bytes version) (by simp)).map (by rw [ofLe_f32Bytes])) ?_
  refine Reads.bind ((reads_LE 1 [UInt8.ofNat info.length] rfl).map
    (b := UInt8.ofNat info.length) (by simp [ofLe, Nat.mod_eq_of_lt h])) ?_
  rw [hn]
  exact (reads_buf info).map rfl

theorem wrote_header (h : Header) (e : UInt8) (rest : Bytes) (hi : h.info = e :: rest) :
    Wrote (writeHeader h)
      (pmxMagic ++ (f32Bytes h.version ++ ([UInt8.ofNat (1 :: rest : Bytes).length] ++ (1 :: rest))))
      ⟨pmxMagic, h.version, 1 :: rest⟩ := by
  unfold writeHeader
  rw [hi]
  refine Wrote.bind (wrote_emit _) ?_
  refine Wrote.bind (wrote_emit _) ?_
  refine Wrote.bind (wrote_emit _) ?_
  have := (wrote_emit (1 :: rest)).bind (b2 := [])
    (w2 := fun _ => (pure ⟨pmxMagic, h.version, 1 :: rest⟩ : Wr Header))
    (b := ⟨pmxMagic, h.version, 1 :: rest⟩) (fun out => by rw [List.append_nil]; rfl)
  rwa [List.append_nil] at this

theorem save_of {d : Document} {hd : Header} {hb bs : Bytes} (h1 : Wrote (writeHeader d.header) hb hd)
    (h2 : Wrote (writeContent d hd.info) bs ()) :
    savePMX d = .ok (hb ++ (bs ++ intBytes 4 0)) := by
  have h4 : Wrote (writeInt 0) (intBytes 4 0) () := wrote_emit (intBytes 4 0)
  have h5 : Wrote (writePMX d) (hb ++ (bs ++ intBytes 4 0)) () := by
    unfold writePMX
    exact h1.bind (h2.bind h4)
  have h3 := h5 []
  unfold savePMX
  generalize writePMX d [] = r at h3 ⊢
  subst h3
  rfl

theorem load_of {sub1 : UInt32 → UInt32} {d : Document} {hd : Header} {hb bs rest : Bytes}
    (h1 : Reads (readHeader none) hb hd) (h2 : Reads (parseContent sub1 hd) bs d) :
    loadPMX sub1 (hb ++ (bs ++ rest)) = .ok d := by
  have h3 := h1.bind (r2 := parseContent sub1) h2 rest
  rw [List.append_assoc] at h3
  have h4 : parsePMX sub1 none (hb ++ (bs ++ rest)) = .ok (d, rest) := h3
  rw [loadPMX, h4]
  rfl

/-- C12. Saving a document that fits its declared index sizes succeeds, and loading the file gives
the document back: all texts, vertices, faces, textures, materials, bones, morphs, bodies and (when
bone and body indexes have the same size) joints, in order. `docBack` (PmxSpec) spells out the only
differences: padded or complemented bone weights, and defaults for bone fields whose flag is off. -/
theorem pmx_save_load (sub1 : UInt32 → UInt32) (d : Document) (h : DocOK d) :
    ∃ bytes, savePMX d = .ok bytes ∧ loadPMX sub1 bytes = .ok (docBack sub1 d) := by
  obtain ⟨h0, h1⟩ := h.info
  obtain ⟨e, rest, hi⟩ := List.exists_cons_of_length_pos h0
  obtain ⟨bs, hw, hr⟩ := rt_document_body sub1 d e rest hi h
  have hlen : (1 :: rest : Bytes).length < 256 := by rw [hi] at h1; simpa using h1
  exact ⟨_, save_of (wrote_header d.header e rest hi) hw,
    load_of (reads_header d.header.version (1 :: rest) hlen) hr⟩

/-- The fields of a document that the file cannot hold have their default values. -/
structure Canonical (sub1 : UInt32 → UInt32) (d : Document) : Prop where
  format : d.header.format = [0x50, 0x4D, 0x58, 0x20]
  utf8 : d.header.info[0]? = some 1
  vertexes : ∀ v ∈ d.vertexes, weightsBack sub1 v.bones v.weights = (v.bones, v.weights)
  bones : ∀ b ∈ d.bones, boneBack b = b

theorem docBack_canonical (sub1 : UInt32 → UInt32) (d : Document) (h : Canonical sub1 d) :
    docBack sub1 d = d := by
  obtain ⟨⟨fmt, ver, info⟩, name, nameEn, comment, commentEn, vs, fs, ts, ms, bs, mo, bo, js⟩ := d
  obtain ⟨h1, h2, h3, h4⟩ := h
  simp only at h1 h2 h3 h4
  subst h1
  have e1 : 1 :: info.tail = info := by
    cases info with
    | nil => simp at h2
    | cons a l => simp at h2; rw [h2]; rfl
  have e2 : vs.map (vertexBack sub1) = vs := by
    conv_rhs => rw [← List.map_id vs]
    apply List.map_congr_left
    intro v hv
    rw [vertexBack, h3 v hv]; rfl
  have e3 : bs.map boneBack = bs := by
    conv_rhs => rw [← List.map_id bs]
    exact List.map_congr_left fun b hb => h4 b hb
  simp only [docBack, e1, e2, e3]

/-- C12. A canonical document is identical after save and load. -/
theorem pmx_save_load_same (sub1 : UInt32 → UInt32) (d : Document) (h : DocOK d)
    (hc : Canonical sub1 d) : ∃ bytes, savePMX d = .ok bytes ∧ loadPMX sub1 bytes = .ok d := by
  obtain ⟨b, h1, h2⟩ := pmx_save_load sub1 d h
  exact ⟨b, h1, by rw [h2, docBack_canonical sub1 d hc]⟩

instance (info : Bytes) (i : Nat) (v : Int) : Decidable (IdxOK info i v) :=
  match h : info[i]? with
  | none => .isFalse (by rintro ⟨sz, h1, -⟩; rw [h] at h1; cases h1)
  | some sz =>
    if hs : SFits sz v then .isTrue ⟨sz, h, hs⟩
    else .isFalse (by rintro ⟨sz', h1, h2⟩; rw [h] at h1; cases h1; exact hs h2)

instance (info : Bytes) (i : Nat) (v : Int) : Decidable (UIdxOK info i v) :=
  match h : info[i]? with
  | none => .isFalse (by rintro ⟨sz, h1, -⟩; rw [h] at h1; cases h1)
  | some sz =>
    if hs : UFits sz v then .isTrue ⟨sz, h, hs⟩
    else .isFalse (by rintro ⟨sz', h1, h2⟩; rw [h] at h1; cases h1; exact hs h2)

instance {α : Type} (l : List α) : Decidable (LenOK l) := by unfold LenOK; infer_instance
instance (v : Int) : Decidable (U32OK v) := by unfold U32OK; infer_instance

/-- A small document with one of everything. -/
def sampleDoc : Document :=
  { header := ⟨pmxMagic, 0x40000000, [1, 1, 2, 1, 1, 2, 1, 2]⟩
    name := [65, 66], nameEn := [], comment := [0xe3, 0x81, 0x82], commentEn := [10]
    vertexes := [
      ⟨⟨1, 2, 3⟩, ⟨4, 5, 6⟩, ⟨7, 8⟩, [⟨9, 10, 11, 12⟩], 13, [0], [oneBits]⟩,
      ⟨⟨1, 2, 3⟩, ⟨4, 5, 6⟩, ⟨7, 8⟩, [⟨9, 10, 11, 12⟩], 13, [0, 1, -1, -1], [5, 6, 7, 8]⟩]
    faces := [⟨0, 1, 40000⟩]
    textures := [[97], []]
    materials := [⟨[109], [], ⟨1, 2, 3, 4⟩, ⟨1, 2, 3⟩, 4, ⟨5, 6, 7⟩, 255, ⟨1, 1, 1, 1⟩, 9, 0, -1, 2, 1, 255,
      [], 3⟩]
    bones := [⟨[98], [], ⟨1, 2, 3⟩, -1, 0, 32 + 256, -1, ⟨5, 5, 5⟩, 1, 7, ⟨0, 0, 0⟩,
      ⟨1, 40, 3, [⟨0, true, ⟨1, 2, 3⟩, ⟨4, 5, 6⟩⟩]⟩⟩]
    morphs := [⟨[97], [], 1, 1, [], [⟨65535, ⟨1, 2, 3⟩⟩], [], []⟩, ⟨[], [], 4, 0, [⟨0, 5⟩], [], [], []⟩]
    bodies := [⟨[], [], -1, 3, -1, 2, ⟨1, 2, 3⟩, ⟨1, 2, 3⟩, ⟨1, 2, 3⟩, 1, 2, 3, 4, 5, 1⟩]
    joints := [⟨[], [], 0, 0, -1, ⟨1, 2, 3⟩, ⟨1, 2, 3⟩, ⟨1, 2, 3⟩, ⟨1, 2, 3⟩, ⟨1, 2, 3⟩, ⟨1, 2, 3⟩, ⟨1, 2, 3⟩,
      ⟨1, 2, 3⟩⟩] }

theorem sampleDoc_ok : DocOK sampleDoc where
  info := by decide
  texts := by decide
  counts := by decide
  vertexes := by
    intro v hv
    simp only [sampleDoc, List.mem_cons, List.not_mem_nil, or_false] at hv
    rcases hv with rfl | rfl <;>
      exact ⟨⟨1, rfl, rfl⟩, by decide, by decide, by decide⟩
  faces := by
    intro v hv
    simp only [sampleDoc, List.mem_cons, List.not_mem_nil, or_false] at hv
    subst hv
    exact ⟨by decide, by decide, by decide⟩
  textures := by decide
  materials := by
    intro v hv
    simp only [sampleDoc, List.mem_cons, List.not_mem_nil, or_false] at hv
    subst hv
    exact ⟨by decide, by decide, by decide, by decide, by decide, by decide, by decide⟩
  bones := by
    intro v hv
    simp only [sampleDoc, List.mem_cons, List.not_mem_nil, or_false] at hv
    subst hv
    exact ⟨by decide, by decide, by decide, by decide, by decide, by decide,
      fun _ => ⟨2, rfl⟩, fun _ => ⟨by decide, by decide, by decide, by decide⟩⟩
  morphs := by
    intro v hv
    simp only [sampleDoc, List.mem_cons, List.not_mem_nil, or_false] at hv
    rcases hv with rfl | rfl <;>
      exact ⟨by decide, by decide, by decide, by decide, by decide, by decide⟩
  bodies := by
    intro v hv
    simp only [sampleDoc, List.mem_cons, List.not_mem_nil, or_false] at hv
    subst hv
    exact ⟨by decide, by decide, by decide, by decide, by decide⟩
  joints := by
    intro v hv
    simp only [sampleDoc, List.mem_cons, List.not_mem_nil, or_false] at hv
    subst hv
    exact ⟨by decide, by decide, by decide, by decide, by decide⟩

theorem sampleDoc_canonical (sub1 : UInt32 → UInt32) : Canonical sub1 sampleDoc where
  format := rfl
  utf8 := rfl
  vertexes := by
    intro v hv
    simp only [sampleDoc, List.mem_cons, List.not_mem_nil, or_false] at hv
    rcases hv with rfl | rfl <;> rfl
  bones := by
    intro v hv
    simp only [sampleDoc, List.mem_cons, List.not_mem_nil, or_false] at hv
    subst hv
    rfl

/-- The hypotheses of C12 are met by a document with one of everything. -/
example : DocOK sampleDoc ∧ Canonical id sampleDoc := ⟨sampleDoc_ok, sampleDoc_canonical id⟩

/-! ## C13 -/

/-- A document with the header of `NewDocument` and one joint between bodies 0 and 1. -/
def jointDoc : Document :=
  { newDocument with
    joints := [⟨[], [], 0, 0, 1, V3.zero, V3.zero, V3.zero, V3.zero, V3.zero, V3.zero, V3.zero,
      V3.zero⟩] }

set_option maxRecDepth 100000 in
/-- C13 is false: with the header of `NewDocument` a joint does not survive, because its body
indexes are written with the bone index size and read with the body index size. -/
theorem pmx_joint_roundtrip_false (sub1 : UInt32 → UInt32) :
    ∃ bytes d, savePMX jointDoc = .ok bytes ∧ loadPMX sub1 bytes = .ok d ∧
      d.joints.map Joint.body2 = [0] ∧ jointDoc.joints.map Joint.body2 = [1] := by
  refine ⟨_, _, rfl, rfl, ?_, rfl⟩
  rfl

/-- C13, the part that holds: joints survive when bone and body indexes have the same size.
Missing: unequal sizes, for which it is false. -/
theorem pmx_joint_roundtrip_partial (info : Bytes) (hi : Utf8 info) (j : Joint)
    (h : JointOK info j) :
    ∃ bs : Bytes, (∀ out, writeJoint info j out = .ok ((), out ++ bs)) ∧
      (∀ rest, readJoint info (bs ++ rest) = .ok (j, rest)) := rt_joint hi h

example : Utf8 [1, 1, 2, 1, 1, 2, 1, 2] ∧ JointOK [1, 1, 2, 1, 1, 2, 1, 2]
    ⟨[97], [], 0, 300, -1, V3.zero, V3.zero, V3.zero, V3.zero, V3.zero, V3.zero, V3.zero, V3.zero⟩ :=
  ⟨⟨1, rfl, by decide⟩, by decide, by decide, by decide, by decide, by decide⟩

/-! ## C14 -/

theorem wrote_VInt (sz : UInt8) (v : Int) :
    ∃ bs, Wrote (writeVInt sz v) bs () ∧ (sz = 1 ∨ sz = 2 ∨ sz = 4 → 1 ≤ bs.length) := by
  unfold writeVInt
  split_ifs with h1 h2 h4
  · exact ⟨_, wrote_emit _, fun _ => by simp [intBytes]⟩
  · exact ⟨_, wrote_emit _, fun _ => by simp [intBytes]⟩
  · exact ⟨_, wrote_emit _, fun _ => by simp [intBytes]⟩
  · exact ⟨[], fun out => by rw [List.append_nil]; rfl, by tauto⟩

theorem wrote_indexes {info : Bytes} {i : Nat} {sz : UInt8} (hs : info[i]? = some sz) (l : List Int) :
    ∃ bs, Wrote (writeAll l (writeIndex info i)) bs () ∧
      (sz = 1 ∨ sz = 2 ∨ sz = 4 → l ≠ [] → 1 ≤ bs.length) := by
  induction l with
  | nil => exact ⟨[], fun out => by rw [List.append_nil]; rfl, by simp⟩
  | cons v l ih =>
    obtain ⟨b1, h1, h2⟩ := wrote_VInt sz v
    obtain ⟨b2, h3, -⟩ := ih
    have h4 : Wrote (writeIndex info i v) b1 () := by
      rw [writeIndex, attr_some hs, pure_bind]; exact h1
    refine ⟨b1 ++ b2, h4.bind h3, fun h _ => ?_⟩
    have := h2 h
    simp only [List.length_append]
    omega

/-- C14 is false: a vertex with 5 to 10, or more than 11, weights (and at least two bones) is written
as if it had one bone, so the reader stops before the end of the vertex and takes the rest of it
for the next record. -/
theorem pmx_vertex_desync_false (sub1 : UInt32 → UInt32) (info : Bytes) (v : Vertex) (n sz : UInt8)
    (hn : info[attrExtUV]? = some n) (hl : v.extUVs.length = n.toNat)
    (hs : info[attrBone]? = some sz) (hsz : sz = 1 ∨ sz = 2 ∨ sz = 4)
    (hw : 5 ≤ v.weights.length ∧ v.weights.length ≠ 11)
    (b0 b1 : Int) (bones : List Int) (hb : v.bones = b0 :: b1 :: bones) (h0 : SFits sz b0) :
    ∃ bytes, (∀ out, writeVertex info v out = .ok ((), out ++ bytes)) ∧
      ∀ rest, ∃ v' rest', readVertex sub1 info (bytes ++ rest) = .ok (v', rest') ∧
        rest.length < rest'.length := by
  have ht : weightType v.weights.length = 0 := by
    rw [weightType, if_neg (by omega), if_neg (by omega), if_neg (by omega), if_neg hw.2]
  have hp : padWeights v.bones v.weights = (v.bones, v.weights) := by
    rw [padWeights, if_neg (by omega)]
  obtain ⟨p1, w1, r1⟩ := rt_orDie (n := 12) (bs := encV3 v.pos) (by simp)
  obtain ⟨p2, w2, r2⟩ := rt_orDie (n := 12) (bs := encV3 v.normal) (by simp)
  obtain ⟨p3, w3, r3⟩ := rt_orDie (n := 8) (bs := encV2 v.uv) (by simp)
  obtain ⟨p4, w4, r4⟩ := rt_orDie (n := 16 * n.toNat) (bs := v.extUVs.flatMap encV4)
    (by rw [flatMap_encV4_length, hl])
  obtain ⟨p5, w5, r5⟩ := rt_U8 0
  obtain ⟨p6, w6, r6⟩ := rt_index (info := info) (i := attrBone) ⟨sz, hs, h0⟩
  obtain ⟨p7, w7, hl7⟩ := wrote_indexes hs (b1 :: bones)
  have hl7 := hl7 hsz (by simp)
  have w8 : Wrote (writeFloat v.edgeScale) (f32Bytes v.edgeScale) () := wrote_emit _
  refine ⟨p1 ++ (p2 ++ (p3 ++ (p4 ++ (p5 ++ ((p6 ++ p7) ++ f32Bytes v.edgeScale))))), ?_, ?_⟩
  · have : Wrote (writeVertex info v)
        (p1 ++ (p2 ++ (p3 ++ (p4 ++ (p5 ++ ((p6 ++ p7) ++ f32Bytes v.edgeScale)))))) () := by
      unfold writeVertex
      rw [ht, hp, hb]
      exact w1.bind (w2.bind (w3.bind (w4.bind (w5.bind ((w6.bind w7).bind
        (w8.bind0))))))
    exact this
  · intro rest
    obtain ⟨q, q', hq, hq4, hq'⟩ : ∃ q q' : Bytes, p7 ++ f32Bytes v.edgeScale = q ++ q' ∧ q.length = 4 ∧
        1 ≤ q'.length := by
      refine ⟨_, _, (List.take_append_drop 4 _).symm, ?_, ?_⟩
      · simp
      · simp; omega
    have hr : Reads (readVertex sub1 info) (p1 ++ (p2 ++ (p3 ++ (p4 ++ (p5 ++ (p6 ++ q))))))
        ⟨v.pos, v.normal, v.uv, v.extUVs, UInt32.ofNat (ofLe q), [b0], [oneBits]⟩ := by
      unfold readVertex
      refine r1.bind (r2.bind (r3.bind ?_))
      rw [attr_some hn, pure_bind]
      refine r4.bind (r5.bind ?_)
      refine Reads.bind (a := ([b0], [oneBits])) (r6.map rfl) ?_
      refine Reads.map (a := UInt32.ofNat (ofLe q)) ((reads_LE 4 q hq4).map rfl) ?_
      simp only [decV3_encV3, decV2_encV2, ← hl, decV4s_enc]
    refine ⟨⟨v.pos, v.normal, v.uv, v.extUVs, UInt32.ofNat (ofLe q), [b0], [oneBits]⟩, q' ++ rest, ?_,
      by simp; omega⟩
    rw [← hr (q' ++ rest)]
    congr 1
    simp only [List.append_assoc]
    rw [← List.append_assoc p7, hq]
    simp only [List.append_assoc]

/-- Five weights, one byte bone indexes. -/
example : ∃ v : Vertex, v.weights.length = 5 ∧ v.bones = [0, 1, 2, 3, 4] ∧ SFits 1 0 :=
  ⟨⟨V3.zero, V3.zero, ⟨0, 0⟩, [], 0, [0, 1, 2, 3, 4], [1, 2, 3, 4, 5]⟩, rfl, rfl, by decide⟩

/-- C14, the part that holds: up to four weights with as many bones, or eleven values with two bones.
Missing: every other number of weights, for which it is false. -/
theorem pmx_vertex_roundtrip_partial (sub1 : UInt32 → UInt32) (info : Bytes) (v : Vertex)
    (h : VertexOK info v) :
    ∃ bs : Bytes, (∀ out, writeVertex info v out = .ok ((), out ++ bs)) ∧
      (∀ rest, readVertex sub1 info (bs ++ rest) = .ok (vertexBack sub1 v, rest)) := rt_vertex sub1 h

/-- Three weights: padded to four. -/
example : VertexOK [1, 1, 2, 1, 1, 2, 1, 2]
    ⟨V3.zero, V3.zero, ⟨0, 0⟩, [⟨1, 2, 3, 4⟩], 0, [0, 1, 2], [1, 2, 3]⟩ :=
  ⟨⟨1, rfl, rfl⟩, by decide, by decide, by decide⟩

/-! ## C17 -/

/-- A document with one rigid body. -/
def bodyDoc : Document :=
  { newDocument with
    bodies := [⟨[], [], -1, 3, -1, 2, V3.zero, V3.zero, V3.zero, 1, 2, 3, 4, 5, 1⟩] }

set_option maxRecDepth 100000 in
/-- C17 is false: the file of `bodyDoc` cut before the rigid bodies loads without error, as a document
without rigid bodies. -/
theorem pmx_truncated_false (sub1 : UInt32 → UInt32) :
    ∃ cut rest d, rest ≠ [] ∧ savePMX bodyDoc = .ok (cut ++ rest) ∧ loadPMX sub1 cut = .ok d ∧
      d.bodies = [] ∧ bodyDoc.bodies.length = 1 := by
  obtain ⟨bytes, h⟩ : ∃ bytes, savePMX bodyDoc = .ok bytes := ⟨_, rfl⟩
  have h1 : (savePMX bodyDoc).toOption.map (fun b => b.take 61) =
      some (pmxMagic ++ [0, 0, 0, 64, 8] ++ newDocument.header.info ++ List.replicate 44 0) := by decide
  have h2 : (savePMX bodyDoc).toOption.map (fun b => (b.drop 61).isEmpty) = some false := by decide
  rw [h] at h1 h2
  have h1 : bytes.take 61 = _ := Option.some.inj h1
  have h2 : (bytes.drop 61).isEmpty = _ := Option.some.inj h2
  refine ⟨bytes.take 61, bytes.drop 61, newDocument, ?_, ?_, ?_, rfl, rfl⟩
  · intro h3; rw [h3] at h2; cases h2
  · rw [List.take_append_drop]; exact h
  · rw [h1]; rfl

/-- C17, the part that holds: a file cut inside the format tag is reported.
Missing: later cuts, for which it is false in general. -/
theorem pmx_truncated_partial (sub1 : UInt32 → UInt32) (bytes : Bytes) (h : bytes.length < 4) :
    loadPMX sub1 bytes = .error .error := by
  have : readBuf 4 bytes = .ok (none, []) := by rw [readBuf, if_neg (by omega)]
  have h2 : parsePMX sub1 none bytes = .error .error := by
    unfold parsePMX readHeader
    simp only [bind, StateT.bind, Except.bind, this, pure, StateT.pure, Except.pure]
    rfl
  rw [loadPMX, h2]
  rfl

example : ∃ bytes, savePMX sampleDoc = .ok bytes ∧ (bytes.take 3).length < 4 := ⟨_, rfl, by simp⟩

end Verif.Mmd
