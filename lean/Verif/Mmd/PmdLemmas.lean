import Verif.Mmd.PmdSpec
import Verif.Mmd.PmxLemmas
import Mathlib.Data.List.TakeWhile

/-! The PMD parser reads every record of the layout in PmdSpec. -/

namespace Verif.Mmd

open Verif.Geom PmdFile

theorem RT.reads {α : Type} {b : Bytes} {r : Rd α} {a : α} (h : RT (emit b) r a) : Reads r b a := by
  obtain ⟨bs, hw, hr⟩ := h
  have := hw []
  simp only [emit, List.nil_append, Except.ok.injEq, Prod.mk.injEq, true_and] at this
  rwa [this]

theorem reads_V2 (v : V2) : Reads readV2 (encV2 v) v := (rt_V2 v).reads
theorem reads_V3 (v : V3) : Reads readV3 (encV3 v) v := (rt_V3 v).reads
theorem reads_V4 (v : V4) : Reads readV4 (encV4 v) v := (rt_V4 v).reads
theorem reads_U8 (v : UInt8) : Reads readU8 [v] v := (rt_U8 v).reads
theorem reads_float (v : UInt32) : Reads readFloat (f32Bytes v) v := RT.reads (rt_float v)

theorem reads_u32 {n : Nat} (h : n < 2 ^ 32) : Reads readInt (u32 n) n := by
  have h1 := reads_LE 4 (u32 n) (by simp [u32])
  rw [u32, ofLe_leBytes, Nat.mod_eq_of_lt (by norm_num; omega)] at h1
  exact h1

theorem reads_u16 {n : Nat} (h : n < 65536) : Reads readU16 (u16 n) (UInt16.ofNat n) := by
  refine (reads_LE 2 (u16 n) (by simp [u16])).map ?_
  rw [u16, ofLe_leBytes, Nat.mod_eq_of_lt (by norm_num; omega)]

theorem reads_u16' (v : UInt16) : Reads readU16 (u16 v.toNat) v := by
  have := reads_u16 v.toNat_lt
  rwa [UInt16.ofNat_toNat] at this

theorem toNat_u16 {n : Nat} (h : n < 65536) : (UInt16.ofNat n).toNat = n := by
  rw [UInt16.toNat_ofNat']; omega

theorem reads_i16 {v : Int} (h : I16 v) : Reads (readVInt 2) (i16 v) v := by
  have := rt_VInt 2 v (by have := h.1; have := h.2; simp [SFits]; omega)
  exact RT.reads this

theorem reads_i32 {v : Int} (h : -2147483648 ≤ v ∧ v < 2147483648) : Reads (readVInt 4) (i32 v) v := by
  have := rt_VInt 4 v (by have := h.1; have := h.2; simp [SFits]; omega)
  exact RT.reads this

theorem reads_str (sjis : Bytes → Bytes) {n : Nat} {b : Bytes} (h : b.length = n) :
    Reads (readString sjis n) b (sjis (b.takeWhile (· != 0))) :=
  (reads_buf' n b h).map rfl

theorem reads_N {α β : Type} (l : List α) (enc : α → Bytes) (r : Rd β) (f : α → β)
    (h : ∀ a ∈ l, Reads r (enc a) (f a)) : Reads (readN l.length r) (l.flatMap enc) (l.map f) := by
  induction l with
  | nil => exact fun _ => rfl
  | cons a l ih =>
    rw [List.flatMap_cons]
    exact (h a (by simp)).bind ((ih fun b hb => h b (by simp [hb])).map rfl)

theorem reads_vertex (env : PmdEnv) {v : Vert} (h : I16 v.bone0 ∧ I16 v.bone1) :
    Reads (readPmdVertex env) v.bytes (vertDoc env v) := by
  unfold readPmdVertex Vert.bytes
  exact (reads_V3 _).bind ((reads_V3 _).bind ((reads_V2 _).bind ((reads_i16 h.1).bind
    ((reads_i16 h.2).bind ((reads_U8 _).bind ((reads_U8 _).map rfl))))))

theorem reads_face (f : UInt16 × UInt16 × UInt16) : Reads readPmdFace (faceBytes f) (faceDoc f) := by
  unfold readPmdFace faceBytes
  exact (reads_u16' _).bind ((reads_u16' _).bind ((reads_u16' _).map rfl))

theorem splitStar_spec (t : Bytes) :
    (splitStar t).headD [] = t.takeWhile (· != 42) ∧
    splitStar t = if 42 ∈ t then [t.takeWhile (· != 42), (t.dropWhile (· != 42)).tail] else [t] := by
  by_cases h : (42 : UInt8) ∈ t
  · rw [if_pos h]
    rcases hd : t.dropWhile (· != 42) with _ | ⟨x, rest⟩
    · rw [List.dropWhile_eq_nil_iff] at hd
      have := hd 42 h
      simp at this
    · simp [splitStar, hd]
  · have h1 : ∀ x ∈ t, (x != 42) = true := by
      intro x hx
      simp only [bne_iff_ne, ne_eq]
      rintro rfl
      exact h hx
    have hd : t.dropWhile (· != 42) = [] := by rw [List.dropWhile_eq_nil_iff]; exact h1
    have ht : t.takeWhile (· != 42) = t := by
      have := List.takeWhile_append_dropWhile (p := (· != (42 : UInt8))) (l := t)
      rwa [hd, List.append_nil] at this
    simp [splitStar, hd, ht, h]

theorem reads_material (env : PmdEnv) {m : Mat} (tex : List Bytes) (i : Nat)
    (h : m.texture.length = 20 ∧ m.count < 2 ^ 32) :
    Reads (readPmdMaterial env tex i) m.bytes (matDoc env tex.length i m, tex ++ matTextures env m) := by
  unfold readPmdMaterial Mat.bytes
  refine (reads_V4 _).bind ((reads_float _).bind ((reads_V3 _).bind ((reads_V3 _).bind
    ((reads_U8 _).bind ((reads_U8 _).bind ((reads_u32 h.2).bind ((reads_str env.sjis h.1).map ?_)))))))
  obtain ⟨s1, s2⟩ := splitStar_spec (text env m.texture)
  have ht : env.sjis (List.takeWhile (fun x => x != 0) m.texture) = text env m.texture := rfl
  simp only [ht, s1]
  by_cases h1 : (text env m.texture).takeWhile (· != 42) = []
  · have e1 : matTextures env m = [] := by simp [matTextures, h1]
    simp [h1, e1, matDoc]
  · have e1 : matTextures env m = splitStar (text env m.texture) := by
      rw [s2]; simp [matTextures, h1]
    have e2 : matTextures env m ≠ [] := by
      rw [e1, s2]; split_ifs <;> simp
    simp [h1, e2, ← e1, matDoc]

theorem reads_materials (env : PmdEnv) (l : List Mat) :
    ∀ (i : Nat) (tex : List Bytes), (∀ m ∈ l, m.texture.length = 20 ∧ m.count < 2 ^ 32) →
    Reads (readPmdMaterials env l.length i tex) (l.flatMap Mat.bytes)
      (l.mapIdx fun j m => matDoc env (tex ++ (l.take j).flatMap (matTextures env)).length (i + j) m,
        tex ++ l.flatMap (matTextures env)) := by
  induction l with
  | nil => intro i tex _ rest; simp [readPmdMaterials]; rfl
  | cons m l ih =>
    intro i tex h
    rw [List.flatMap_cons]
    refine (reads_material env tex i (h m (by simp))).bind ?_
    refine (ih (i + 1) (tex ++ matTextures env m) fun m' hm => h m' (by simp [hm])).map ?_
    congr 2
    · simp only [List.mapIdx_cons, List.take_zero, List.flatMap_nil, List.append_nil, Nat.add_zero,
        List.take_succ_cons, List.flatMap_cons, List.append_assoc]
      congr 2
      funext j m'
      congr 1
      omega
    · rw [List.flatMap_cons, List.append_assoc]

theorem reads_bone (env : PmdEnv) {b : Bn} (i : Nat) (h : b.name.length = 20 ∧ I16 b.parent ∧ I16 b.tail) :
    Reads (readPmdBone env) b.bytes (boneDoc env [] i b) := by
  unfold readPmdBone Bn.bytes
  exact (reads_str env.sjis h.1).bind ((reads_i16 h.2.1).bind ((reads_i16 h.2.2).bind
    ((reads_U8 _).bind ((reads_u16' _).bind ((reads_V3 _).map rfl)))))

theorem ikDoc_append (iks : List Ik) (k : Ik) (i : Nat) :
    ikDoc (iks ++ [k]) i = if k.bone.toNat = i then
      ⟨k.target, k.iterations.toNat, 0,
        (ikDoc iks i).links ++ k.links.map fun t => ⟨t, false, V3.zero, V3.zero⟩⟩
      else ikDoc iks i := by
  unfold ikDoc
  by_cases h : k.bone.toNat = i
  · simp [List.filter_append, h]
  · simp [List.filter_append, h]

theorem reads_ik (env : PmdEnv) (bns : List Bn) (iks : List Ik) (k : Ik)
    (h : k.bone.toNat < bns.length ∧ I16 k.target ∧ k.links.length < 256 ∧ ∀ l ∈ k.links, I16 l) :
    Reads (readPmdIK (bns.mapIdx (boneDoc env iks))) k.bytes
      (bns.mapIdx (boneDoc env (iks ++ [k]))) := by
  obtain ⟨h1, h2, h3, h4⟩ := h
  unfold readPmdIK Ik.bytes
  refine (reads_u16' _).bind ?_
  have hg : (bns.mapIdx (boneDoc env iks))[k.bone.toNat]? =
      some (boneDoc env iks k.bone.toNat bns[k.bone.toNat]) := by
    simp [List.getElem?_mapIdx, List.getElem?_eq_getElem h1]
  rw [hg]
  have hn : (UInt8.ofNat k.links.length).toNat = k.links.length := by rw [UInt8.toNat_ofNat']; omega
  refine (reads_i16 h2).bind ((reads_U8 _).bind ((reads_u16' _).bind ((reads_float _).bind ?_)))
  rw [hn]
  refine (reads_N k.links i16 readPmdLink (fun t => ⟨t, false, V3.zero, V3.zero⟩)
    fun t ht => (reads_i16 (h4 t ht)).map rfl).map ?_
  congr 1
  apply List.ext_getElem?
  intro j
  rw [List.getElem?_set, List.getElem?_mapIdx, List.getElem?_mapIdx, List.length_mapIdx]
  by_cases hj : k.bone.toNat = j
  · subst hj
    rw [if_pos rfl, if_pos h1, List.getElem?_eq_getElem h1]
    simp only [Option.map_some, Option.some.injEq, setIK, boneDoc, ikDoc_append, if_pos]
    rfl
  · rw [if_neg hj]
    cases bns[j]? with
    | none => rfl
    | some b => simp only [Option.map_some, boneDoc, ikDoc_append, if_neg hj]

theorem reads_iks (env : PmdEnv) (bns : List Bn) (l : List Ik) :
    ∀ iks, (∀ k ∈ l, k.bone.toNat < bns.length ∧ I16 k.target ∧ k.links.length < 256 ∧
      ∀ t ∈ k.links, I16 t) →
    Reads (readPmdIKs l.length (bns.mapIdx (boneDoc env iks))) (l.flatMap Ik.bytes)
      (bns.mapIdx (boneDoc env (iks ++ l))) := by
  induction l with
  | nil => intro iks _ rest; rw [List.append_nil]; rfl
  | cons k l ih =>
    intro iks h
    rw [List.flatMap_cons]
    refine (reads_ik env bns iks k (h k (by simp))).bind ?_
    have := ih (iks ++ [k]) fun k' hk => h k' (by simp [hk])
    rw [List.append_assoc] at this
    exact this

/-- A morph as stored, before its vertices are looked up in the base morph. -/
def moRaw (env : PmdEnv) (m : Mo) : Morph :=
  ⟨text env m.name, [], m.panel, 0, [], m.verts.map fun v => ⟨v.1, v.2⟩, [], []⟩

theorem reads_morph (env : PmdEnv) {m : Mo} (h : MoOK m) :
    Reads (readPmdMorph env) m.bytes (moRaw env m) := by
  unfold readPmdMorph Mo.bytes
  exact (reads_str env.sjis h.name).bind ((reads_u32 h.count).bind ((reads_U8 _).bind
    ((reads_N m.verts morphVertBytes readPmdMorphVertex (fun v => ⟨v.1, v.2⟩)
      fun v hv => (reads_i32 (h.idx v hv)).bind ((reads_V3 _).map rfl)).map rfl)))

theorem mapM_ok {α β : Type} (f : α → Except Stop β) (g : α → β) (l : List α)
    (h : ∀ a ∈ l, f a = .ok (g a)) : l.mapM f = .ok (l.map g) := by
  induction l with
  | nil => rfl
  | cons a l ih =>
    rw [List.mapM_cons, h a (by simp), ih fun b hb => h b (by simp [hb])]
    rfl

theorem reads_lift {α : Type} {x : Except Stop α} {a : α} (h : x = .ok a) :
    Reads (StateT.lift x : Rd α) [] a := by
  subst h
  exact fun _ => rfl

theorem reads_morphOn (env : PmdEnv) (base : Mo) {m : Mo} (h : MoOK m)
    (ht : ∀ v ∈ m.verts, 0 ≤ v.1 ∧ v.1 < base.verts.length) :
    Reads (readPmdMorphOn env (moRaw env base).vertex) m.bytes (moDoc env base m) := by
  unfold readPmdMorphOn
  have key : (moRaw env m).vertex.mapM (baseTarget (moRaw env base).vertex) =
      .ok (moDoc env base m).vertex := by
    have := mapM_ok (baseTarget (moRaw env base).vertex)
      (fun v => ⟨((base.verts.map Prod.fst)[v.target.toNat]?).getD 0, v.offset⟩) (moRaw env m).vertex ?_
    · rw [this]
      simp [moRaw, moDoc, Function.comp_def]
    · intro a ha
      simp only [moRaw, List.mem_map] at ha
      obtain ⟨v, hv, rfl⟩ := ha
      have := ht v hv
      have hb : v.1.toNat < base.verts.length := by omega
      rw [baseTarget, if_neg (by simp only; omega)]
      simp [moRaw, List.getElem?_eq_getElem hb]
  rw [← List.append_nil m.bytes]
  refine (reads_morph env h).bind ?_
  exact Reads.map (b := moDoc env base m) (reads_lift key) rfl

theorem reads_morphs (env : PmdEnv) (mo : Option (Mo × List Mo))
    (h : ∀ base ms, mo = some (base, ms) → ms.length + 1 < 65536 ∧ MoOK base ∧
      ∀ m ∈ ms, MoOK m ∧ ∀ v ∈ m.verts, 0 ≤ v.1 ∧ v.1 < base.verts.length) :
    Reads (readPmdMorphs env) (morphsBytes mo) (morphsDoc env mo) := by
  unfold readPmdMorphs
  match mo, h with
  | none, _ =>
    exact (reads_u16 (by norm_num)).map rfl
  | some (base, ms), h =>
    obtain ⟨h1, h2, h3⟩ := h base ms rfl
    refine (reads_u16 h1).bind ?_
    rw [toNat_u16 h1, if_neg (by omega)]
    refine (reads_morph env h2).bind ?_
    exact reads_N ms Mo.bytes _ (moDoc env base) fun m hm => reads_morphOn env base (h3 m hm).1 (h3 m hm).2

theorem reads_pmd_content (env : PmdEnv) (f : PmdFile) (h : f.OK) :
    Reads (parsePmdContent env ⟨pmdMagic, f.version, []⟩) f.content (f.doc env) := by
  unfold parsePmdContent PmdFile.content
  refine (reads_str env.sjis h.name).bind ((reads_str env.sjis h.comment).bind ?_)
  refine (reads_u32 h.nverts).bind ?_
  refine (reads_N f.verts Vert.bytes _ (vertDoc env) fun v hv => reads_vertex env (h.verts v hv)).bind ?_
  refine (reads_u32 h.nfaces).bind ?_
  rw [Nat.mul_div_cancel _ (by norm_num)]
  refine (reads_N f.faces faceBytes _ faceDoc fun v _ => reads_face v).bind ?_
  refine (reads_u32 h.nmats).bind ?_
  refine (reads_materials env f.mats 0 [] h.mats).bind ?_
  refine (reads_u16 h.nbones).bind ?_
  rw [toNat_u16 h.nbones]
  have hb : f.bones.map (boneDoc env [] 0) = f.bones.mapIdx (boneDoc env []) := by
    apply List.ext_getElem?
    intro i
    rw [List.getElem?_map, List.getElem?_mapIdx]
    rfl
  refine (reads_N f.bones Bn.bytes _ (boneDoc env [] 0) fun b hb => reads_bone env 0 (h.bones b hb)).bind ?_
  rw [hb]
  refine (reads_u16 h.niks).bind ?_
  rw [toNat_u16 h.niks]
  refine (reads_iks env f.bones f.iks [] h.iks).bind ?_
  refine (reads_morphs env f.morphs h.morphs).map ?_
  simp [PmdFile.doc, matsDoc, text, pmdMagic]

end Verif.Mmd
