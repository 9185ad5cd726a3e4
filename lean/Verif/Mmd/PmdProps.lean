import Verif.Mmd.PmdLemmas
import Verif.Mmd.PmxPost
import Verif.Mmd.PmxProps

/-! Properties C15 (PMD to PMX), C60 (loading a PMX file, saving and loading again), C61 (PMD files)
and C62 (format dispatch). -/

namespace Verif.Mmd

open Verif.Geom PmdFile

/-! ## C60 -/

/-- C60. Every file below 2 GiB that loads can be saved, and loading the result gives the same
document, except that the header then says UTF-8. (Joints: only when bone and body indexes have the
same size, see C13.) -/
theorem pmx_load_save_load (sub1 : UInt32 → UInt32) (b : Bytes) (d : Document)
    (hb : b.length < 2 ^ 31) (h : loadPMX sub1 b = .ok d)
    (hj : d.joints = [] ∨ d.header.info[attrBone]? = d.header.info[attrRB]?) :
    ∃ b', savePMX d = .ok b' ∧
      loadPMX sub1 b' = .ok { d with header := { d.header with info := 1 :: d.header.info.tail } } := by
  unfold loadPMX at h
  cases hr : parsePMX sub1 none b with
  | error e => rw [hr] at h; cases h
  | ok p =>
    obtain ⟨d', rest⟩ := p
    rw [hr] at h
    cases h
    obtain ⟨-, hl⟩ := post_document sub1 none b d' rest hb hr
    obtain ⟨b', h1, h2⟩ := pmx_save_load sub1 d' (hl.ok hj)
    exact ⟨b', h1, by rw [h2, hl.back]⟩

/-- C60. Loading and saving once more changes nothing any more: the reloaded document is saved as
the same bytes. -/
theorem pmx_save_stable (d : Document) (h : d.header.info ≠ []) :
    savePMX { d with header := { d.header with info := 1 :: d.header.info.tail } } = savePMX d := by
  obtain ⟨⟨fmt, ver, info⟩, name, nameEn, comment, commentEn, vs, fs, ts, ms, bs, mo, bo, js⟩ := d
  cases info with
  | nil => exact (h rfl).elim
  | cons e rest => rfl

/-- A file that loads: the file of `sampleDoc`. -/
example : ∃ b d, loadPMX id b = .ok d ∧ d.joints.length = 1 ∧ d.vertexes.length = 2 ∧
    d.header.info[attrBone]? = d.header.info[attrRB]? := by
  obtain ⟨b, -, h⟩ := pmx_save_load_same id sampleDoc sampleDoc_ok (sampleDoc_canonical id)
  exact ⟨b, _, h, rfl, rfl, rfl⟩

/-! ## C61 -/

theorem reads_pmd_header (v : UInt32) :
    Reads (readPmdHeader none) (pmdMagic ++ f32Bytes v) ⟨pmdMagic, v, []⟩ := by
  unfold readPmdHeader
  refine Reads.bind (a := pmdMagic) ((reads_buf' 3 pmdMagic rfl).map rfl) ?_
  rw [if_neg (by simp)]
  exact (reads_float v).map rfl

theorem reads_pmd (env : PmdEnv) (f : PmdFile) (h : f.OK) :
    Reads (parsePMD env none) f.bytes (f.doc env) := by
  unfold parsePMD PmdFile.bytes
  rw [← List.append_assoc]
  exact (reads_pmd_header _).bind (reads_pmd_content env f h)

/-- C61. A PMD file is read as the format prescribes (`PmdFile.bytes`, `PmdFile.doc`): every vertex,
face, material, texture, bone, IK entry and morph, whatever follows in the file. -/
theorem pmd_load (env : PmdEnv) (f : PmdFile) (h : f.OK) (rest : Bytes) :
    loadPMD env (f.bytes ++ rest) = .ok (f.doc env) := by
  rw [loadPMD, reads_pmd env f h rest]
  rfl

/-- A PMD file with an IK entry, a material with two textures and a morph. -/
def samplePmd : PmdFile where
  version := 0x3f800000
  name := 65 :: List.replicate 19 0
  comment := List.replicate 256 0
  verts := [⟨⟨1, 2, 3⟩, ⟨4, 5, 6⟩, ⟨7, 8⟩, 0, 1, 60, 0⟩, ⟨⟨1, 2, 3⟩, ⟨4, 5, 6⟩, ⟨7, 8⟩, 1, -1, 100, 1⟩]
  faces := [(0, 1, 1)]
  mats := [⟨⟨1, 2, 3, 4⟩, 5, ⟨6, 7, 8⟩, ⟨9, 10, 11⟩, 0, 1, 3, [97, 42, 98] ++ List.replicate 17 0⟩]
  bones := [⟨98 :: List.replicate 19 0, -1, 1, 0, 0, ⟨1, 2, 3⟩⟩, ⟨99 :: List.replicate 19 0, 0, 0, 0, 0, ⟨1, 2, 4⟩⟩]
  iks := [⟨1, 0, 40, 7, [1, 0]⟩]
  morphs := some (⟨List.replicate 20 0, 0, [(1, ⟨1, 1, 1⟩), (0, ⟨2, 2, 2⟩)]⟩,
    [⟨100 :: List.replicate 19 0, 2, [(0, ⟨5, 5, 5⟩)]⟩])

theorem samplePmd_ok : samplePmd.OK where
  name := by decide
  comment := List.length_replicate
  nverts := by decide
  verts := by
    intro v hv
    simp only [samplePmd, List.mem_cons, List.not_mem_nil, or_false] at hv
    rcases hv with rfl | rfl <;> (simp only [I16]; decide)
  nfaces := by decide
  nmats := by decide
  mats := by decide
  nbones := by decide
  bones := by
    intro v hv
    simp only [samplePmd, List.mem_cons, List.not_mem_nil, or_false] at hv
    rcases hv with rfl | rfl <;> (simp only [I16]; decide)
  niks := by decide
  iks := by
    intro v hv
    simp only [samplePmd, List.mem_cons, List.not_mem_nil, or_false] at hv
    subst hv
    simp only [I16]; decide
  morphs := by
    intro base ms h
    simp only [samplePmd, Option.some.injEq, Prod.mk.injEq] at h
    obtain ⟨rfl, rfl⟩ := h
    refine ⟨by decide, ⟨by decide, by decide, by decide⟩, ?_⟩
    intro m hm
    simp only [List.mem_cons, List.not_mem_nil, or_false] at hm
    subst hm
    exact ⟨⟨by decide, by decide, by decide⟩, by decide⟩

/-- The morph vertex is found through the base morph (entry 0 of the base is vertex 1), and the
material has two textures. -/
example : samplePmd.OK ∧ ∀ env : PmdEnv, env.sjis = id →
    (samplePmd.doc env).morphs.map Morph.vertex = [[⟨1, ⟨5, 5, 5⟩⟩]] ∧
    (samplePmd.doc env).textures = [[97], [98]] ∧
    (samplePmd.doc env).bones.map (fun b => b.ik.links.length) = [0, 2] := by
  refine ⟨samplePmd_ok, ?_⟩
  rintro ⟨_, _, _, _, _⟩ rfl
  exact ⟨rfl, rfl, rfl⟩

/-! ## C62 -/

theorem peek_of_le (n : Nat) (b : Bytes) (h : n ≤ b.length) : peek n b = b.take n := by
  rw [peek, Nat.sub_eq_zero_of_le h, List.replicate_zero, List.append_nil]

theorem bind_congr_state {α β : Type} {r1 r1' : Rd α} {r2 : α → Rd β} {s s' : Bytes}
    (h : r1 s = r1' s') : (r1 >>= r2) s = (r1' >>= r2) s' := by
  show (r1 s >>= fun p => r2 p.1 p.2) = (r1' s' >>= fun p => r2 p.1 p.2)
  rw [h]

/-- C62. A file that does not start with `Pmd` is read exactly as the PMX parser reads it. -/
theorem parse_pmx (env : PmdEnv) (b : Bytes) (h4 : 4 ≤ b.length) (h : b.take 3 ≠ [0x50, 0x6D, 0x64]) :
    parseFile env b = loadPMX env.sub1 b := by
  have hb : b ≠ [] := by rintro rfl; simp at h4
  rw [← show pmdMagic = [0x50, 0x6D, 0x64] from rfl] at h
  rw [parseFile, if_neg hb, peek_of_le 3 b (by omega), if_neg h, loadPMX, peek_of_le 4 b h4]
  congr 1
  unfold parsePMX
  apply bind_congr_state
  unfold readHeader
  apply bind_congr_state
  show Except.ok (List.take 4 b, List.drop 4 b) = (readBuf 4 b >>= fun p => _)
  rw [readBuf, if_pos h4]
  rfl

/-- C62. A file that starts with `Pmd` is read exactly as the PMD parser reads it. -/
theorem parse_pmd (env : PmdEnv) (b : Bytes) (h : b.take 3 = [0x50, 0x6D, 0x64]) :
    parseFile env b = loadPMD env b := by
  have h3 : 3 ≤ b.length := by
    have := congrArg List.length h
    simp at this
    omega
  rw [← show pmdMagic = [0x50, 0x6D, 0x64] from rfl] at h
  have hb : b ≠ [] := by rintro rfl; simp at h3
  rw [parseFile, if_neg hb, peek_of_le 3 b h3, if_pos h, loadPMD]
  congr 1
  unfold parsePMD
  apply bind_congr_state
  unfold readPmdHeader
  apply bind_congr_state
  show Except.ok (pmdMagic, List.drop 3 b) = (readBuf 3 b >>= fun p => _)
  rw [readBuf, if_pos h3, h]
  rfl

/-- C62. Opening a saved PMX file gives the document back. -/
theorem pmx_save_parse (env : PmdEnv) (d : Document) (h : DocOK d) :
    ∃ bytes, savePMX d = .ok bytes ∧ parseFile env bytes = .ok (docBack env.sub1 d) := by
  obtain ⟨h0, h1⟩ := h.info
  obtain ⟨e, rest, hi⟩ := List.exists_cons_of_length_pos h0
  obtain ⟨bs, hw, hr⟩ := rt_document_body env.sub1 d e rest hi h
  have hlen : (1 :: rest : Bytes).length < 256 := by rw [hi] at h1; simpa using h1
  refine ⟨_, save_of (wrote_header d.header e rest hi) hw, ?_⟩
  rw [parse_pmx]
  · exact load_of (reads_header d.header.version (1 :: rest) hlen) hr
  · simp [pmxMagic]
  · simp [pmxMagic, pmdMagic]

/-- C62. Opening a PMD file gives its document. -/
theorem pmd_parse (env : PmdEnv) (f : PmdFile) (h : f.OK) (rest : Bytes) :
    parseFile env (f.bytes ++ rest) = .ok (f.doc env) := by
  rw [parse_pmd env _ (by simp [PmdFile.bytes, pmdMagic]), pmd_load env f h rest]

example : DocOK sampleDoc ∧ samplePmd.OK := ⟨sampleDoc_ok, samplePmd_ok⟩

/-! ## C15 -/

theorem pmd_loaded_info (env : PmdEnv) (fmt : Option Bytes) :
    Post (parsePMD env fmt) fun d => d.header.info = [] := by
  have hs : ∀ n, Post (readString env.sjis n) fun _ => True :=
    fun n => (post_buf n).bind fun _ _ => Post.pure trivial
  have any : ∀ {α : Type} {r : Rd α} {P : α → Prop}, Post r P → Post r fun _ => True := fun h => h.any
  unfold parsePMD
  refine Post.bind (P := fun h => h.info = []) ?_ fun h hh => ?_
  · unfold readPmdHeader
    refine Post.bind (P := fun _ => True) ?_ fun format _ => ?_
    · cases fmt with
      | none => exact (post_buf 3).bind fun _ _ => Post.pure trivial
      | some f => exact Post.pure trivial
    by_cases hf : format = pmdMagic
    · rw [if_neg (not_not.2 hf)]
      exact post_float.bind fun v _ => Post.pure rfl
    · rw [if_pos hf]
      exact Post.bind (P := fun _ => False) Post.throw fun _ h => h.elim
  have hmorph : Post (readPmdMorph env) fun _ => True := by
    unfold readPmdMorph
    refine (hs 20).bind fun _ _ => post_int.bind fun n _ => post_U8.bind fun _ _ => ?_
    refine (post_N (P := fun _ => True) ?_ n).bind fun _ _ => Post.pure trivial
    exact (post_VInt 4).bind fun _ _ => post_V3.bind fun _ _ => Post.pure trivial
  have hlift : ∀ {α : Type} (x : Except Stop α), Post (StateT.lift x : Rd α) fun _ => True := by
    intro α x s a s' _ hr
    cases x with
    | error e => cases hr
    | ok v =>
      have hr : Except.ok (v, s) = Except.ok (a, s') := hr
      simp only [Except.ok.injEq, Prod.mk.injEq] at hr
      rw [← hr.2]; exact ⟨le_refl _, trivial⟩
  have hmats : ∀ n i tex, Post (readPmdMaterials env n i tex) fun _ => True := by
    intro n
    induction n with
    | zero => intro i tex; exact Post.pure trivial
    | succ n ih =>
      intro i tex
      refine Post.bind (P := fun _ => True) ?_ fun m _ => (ih _ _).bind fun _ _ => Post.pure trivial
      unfold readPmdMaterial
      exact post_V4.bind fun _ _ => post_float.bind fun _ _ => post_V3.bind fun _ _ => post_V3.bind fun _ _ =>
        post_U8.bind fun _ _ => post_U8.bind fun _ _ => post_int.bind fun _ _ => (hs 20).bind fun _ _ =>
        Post.pure trivial
  have hiks : ∀ n bones, Post (readPmdIKs n bones) fun _ => True := by
    intro n
    induction n with
    | zero => intro bones; exact Post.pure trivial
    | succ n ih =>
      intro bones
      refine Post.bind (P := fun _ => True) ?_ fun m _ => ih _
      unfold readPmdIK
      refine post_U16.bind fun i _ => ?_
      cases bones[i.toNat]? with
      | none => exact Post.throw
      | some b =>
        refine (post_VInt 2).bind fun _ _ => post_U8.bind fun ln _ => post_U16.bind fun _ _ =>
          post_float.bind fun _ _ => ?_
        refine (post_N (P := fun _ => True) ?_ _).bind fun _ _ => Post.pure trivial
        exact (post_VInt 2).bind fun _ _ => Post.pure trivial
  have hmorphs : Post (readPmdMorphs env) fun _ => True := by
    unfold readPmdMorphs
    refine post_U16.bind fun n _ => ?_
    split_ifs
    · exact Post.pure trivial
    · refine hmorph.bind fun base _ => any (post_N (P := fun _ => True) ?_ _)
      unfold readPmdMorphOn
      exact hmorph.bind fun m _ => (hlift _).bind fun _ _ => Post.pure trivial
  unfold parsePmdContent
  refine (hs 20).bind fun _ _ => (hs 256).bind fun _ _ => post_int.bind fun vn _ => ?_
  refine Post.bind (P := fun _ => True) (any (post_N (P := fun _ => True) ?_ _)) fun _ _ => ?_
  · exact post_V3.bind fun _ _ => post_V3.bind fun _ _ => post_V2.bind fun _ _ => (post_VInt 2).bind fun _ _ =>
      (post_VInt 2).bind fun _ _ => post_U8.bind fun _ _ => post_U8.bind fun _ _ => Post.pure trivial
  refine post_int.bind fun fn _ => ?_
  refine Post.bind (P := fun _ => True) (any (post_N (P := fun _ => True) ?_ _)) fun _ _ => ?_
  · exact post_U16.bind fun _ _ => post_U16.bind fun _ _ => post_U16.bind fun _ _ => Post.pure trivial
  refine post_int.bind fun mn _ => (hmats _ _ _).bind fun _ _ => post_U16.bind fun bn _ => ?_
  refine Post.bind (P := fun _ => True) (any (post_N (P := fun _ => True) ?_ _)) fun _ _ => ?_
  · exact (hs 20).bind fun _ _ => (post_VInt 2).bind fun _ _ => (post_VInt 2).bind fun _ _ =>
      post_U8.bind fun _ _ => post_U16.bind fun _ _ => post_V3.bind fun _ _ => Post.pure trivial
  exact post_U16.bind fun ikn _ => (hiks _ _).bind fun _ _ => hmorphs.bind fun _ _ => Post.pure hh

/-- C15 is false for every PMD file: its document has no PMX header attributes, and saving it as PMX
stops with an index out of range. -/
theorem pmd_save_pmx_panics_false (env : PmdEnv) (b : Bytes) (d : Document) (hb : b.length < 2 ^ 31)
    (h : loadPMD env b = .ok d) : savePMX d = .error .panic := by
  unfold loadPMD at h
  cases hr : parsePMD env none b with
  | error e => rw [hr] at h; cases h
  | ok p =>
    obtain ⟨d', rest⟩ := p
    rw [hr] at h
    cases h
    obtain ⟨-, hi⟩ := pmd_loaded_info env none b d' rest hb hr
    have h1 : writeHeader d'.header [] = .error .panic := by
      unfold writeHeader
      rw [hi]
      rfl
    have h2 : writePMX d' [] = .error .panic := by
      unfold writePMX
      show (writeHeader d'.header [] >>= fun p => _) = _
      rw [h1]
      rfl
    rw [savePMX, h2]
    rfl

/-- C15 is false also when the document gets a PMX header before saving: no PMX file whatsoever loads
with the morphs of a PMD file that has a non-empty morph, because vertex morphs from PMD carry the
type number of group morphs. -/
theorem pmd_morphs_as_pmx_false (env : PmdEnv) (f : PmdFile) (base : Mo) (ms : List Mo)
    (hm : f.morphs = some (base, ms)) (hne : ∃ m ∈ ms, m.verts ≠ [])
    (b : Bytes) (d : Document) (hb : b.length < 2 ^ 31) (h : loadPMX env.sub1 b = .ok d) :
    d.morphs ≠ (f.doc env).morphs := by
  unfold loadPMX at h
  cases hr : parsePMX env.sub1 none b with
  | error e => rw [hr] at h; cases h
  | ok p =>
    obtain ⟨d', rest⟩ := p
    rw [hr] at h
    cases h
    obtain ⟨-, hl⟩ := post_document env.sub1 none b d' rest hb hr
    intro he
    obtain ⟨m, hmem, hv⟩ := hne
    have h1 : moDoc env base m ∈ d'.morphs := by
      have h2 : (f.doc env).morphs = ms.map (moDoc env base) := by
        simp only [PmdFile.doc, hm, morphsDoc]
      rw [he, h2]
      exact List.mem_map_of_mem hmem
    have h3 := (hl.morphs _ h1).vertex.1
    rcases h3 with h3 | h3
    · simp [moDoc, hv] at h3
    · simp [moDoc] at h3

example : ∃ base ms, samplePmd.morphs = some (base, ms) ∧ ∃ m ∈ ms, m.verts ≠ [] :=
  ⟨_, _, rfl, _, List.mem_cons_self, by decide⟩

end Verif.Mmd
