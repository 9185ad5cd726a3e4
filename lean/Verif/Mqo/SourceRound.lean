import Verif.Mqo.SourceLemmas

/-! The parts of the texts of `Verif.Mqo.Source` are read as what they say. -/

namespace Verif.Mqo

open Verif.Geom Verif.Text

variable [Uni]

section
variable {F : Type} [Zero F] [One F] [Neg F] [Mul F] [NumText F]

/-! ## Which names have a handler -/

theorem materialAttrs_keys : KeysOf (materialAttrs (F := F)) materialKeys := by
  refine ⟨fun w hw => ?_, by decide⟩
  by_contra hn
  have ne : ∀ k ∈ materialKeys, ¬w = k := fun k hk e => hn (e ▸ hk)
  have : materialAttrs (F := F) w = none := by
    unfold materialAttrs
    iterate 13 (refine (if_neg (ne _ ?_)).trans ?_; · decide)
    rfl
  rw [this] at hw
  exact absurd hw (by simp)

theorem faceAttrs_keys (n : Nat) : KeysOf (faceAttrs (F := F) n) faceKeys := by
  refine ⟨fun w hw => ?_, by decide⟩
  by_contra hn
  have ne : ∀ k ∈ faceKeys, ¬w = k := fun k hk e => hn (e ▸ hk)
  have : faceAttrs (F := F) n w = none := by
    unfold faceAttrs
    iterate 6 (refine (if_neg (ne _ ?_)).trans ?_; · decide)
    rfl
  rw [this] at hw
  exact absurd hw (by simp)

omit [Zero F] [One F] [Neg F] [Mul F] [NumText F] in
theorem vertexAttrs_keys : KeysOf (vertexAttrs (F := F)) vertexKeys := by
  refine ⟨fun w hw => ?_, by decide⟩
  by_contra hn
  have ne : ∀ k ∈ vertexKeys, ¬w = k := fun k hk e => hn (e ▸ hk)
  have : vertexAttrs (F := F) w = none := by
    unfold vertexAttrs
    iterate 1 (refine (if_neg (ne _ ?_)).trans ?_; · decide)
    rfl
  rw [this] at hw
  exact absurd hw (by simp)

theorem objectAttrs_keys : KeysOf (objectAttrs (F := F)) objectKeys := by
  refine ⟨fun w hw => ?_, by decide⟩
  by_contra hn
  have ne : ∀ k ∈ objectKeys, ¬w = k := fun k hk e => hn (e ▸ hk)
  have : objectAttrs (F := F) w = none := by
    unfold objectAttrs
    iterate 17 (refine (if_neg (ne _ ?_)).trans ?_; · decide)
    rfl
  rw [this] at hw
  exact absurd hw (by simp)

theorem sceneAttrs_keys : KeysOf (sceneAttrs (F := F)) sceneKeys := by
  refine ⟨fun w hw => ?_, by decide⟩
  by_contra hn
  have ne : ∀ k ∈ sceneKeys, ¬w = k := fun k hk e => hn (e ▸ hk)
  have : sceneAttrs (F := F) w = none := by
    unfold sceneAttrs
    iterate 10 (refine (if_neg (ne _ ?_)).trans ?_; · decide)
    rfl
  rw [this] at hw
  exact absurd hw (by simp)

/-! ## Materials -/

/-- A known attribute. -/
theorem known_attr {σ : Type} {h : Handlers σ} {name value : Str} {f : σ → P σ} {x x' : σ}
    (hw : isWord name = true) (hf : h name = some f) (hr : Reads (f x) value x') (hv : '\n' ∉ value) :
    AttrPiece h (attr name value) x x' ∧ Spaced (attr name value) :=
  ⟨attrPiece hw hf hr hv, spaced_attr hw hv⟩

theorem matAttr_piece (a : MatAttr) (ha : a.Ok) (m : Material F) :
    AttrPiece materialAttrs a.text m (a.set m) ∧ Spaced a.text := by
  cases a with
  | col r g b c =>
    obtain ⟨h1, h2, h3, h4⟩ := ha
    refine known_attr (name := "col".toList) (by decide) rfl ((reads_vec4 h1.numOk h2.numOk h3.numOk h4.numOk).map
      fun c => ({ m with color := c } : Material F)) ?_
    simp [MatAttr.value, spaced, h1.noNl, h2.noNl, h3.noNl, h4.noNl]
  | emiCol c => exact known_attr (name := "emi_col".toList) (by decide) rfl ((Num3.Ok.reads ha).map
      fun c => ({ m with emissionColor := some c } : Material F)) (Num3.Ok.noNl ha)
  | dif x => exact known_attr (name := "dif".toList) (by decide) rfl ((Num.Ok.reads ha).map
      fun c => ({ m with diffuse := c } : Material F)) (Num.Ok.noNl ha)
  | amb x => exact known_attr (name := "amb".toList) (by decide) rfl ((Num.Ok.reads ha).map
      fun c => ({ m with ambient := c } : Material F)) (Num.Ok.noNl ha)
  | emi x => exact known_attr (name := "emi".toList) (by decide) rfl ((Num.Ok.reads ha).map
      fun c => ({ m with emission := c } : Material F)) (Num.Ok.noNl ha)
  | spc x => exact known_attr (name := "spc".toList) (by decide) rfl ((Num.Ok.reads ha).map
      fun c => ({ m with specular := c } : Material F)) (Num.Ok.noNl ha)
  | power x => exact known_attr (name := "power".toList) (by decide) rfl ((Num.Ok.reads ha).map
      fun c => ({ m with power := c } : Material F)) (Num.Ok.noNl ha)
  | tex t => exact known_attr (name := "tex".toList) (by decide) rfl ((reads_str t ha).map
      fun c => ({ m with texture := c } : Material F)) (plain_noNl ha)
  | aplane t => exact known_attr (name := "aplane".toList) (by decide) rfl ((reads_str t ha).map
      fun c => ({ m with alphaTexture := c } : Material F)) (plain_noNl ha)
  | bump t => exact known_attr (name := "bump".toList) (by decide) rfl ((reads_str t ha).map
      fun c => ({ m with bumpTexture := c } : Material F)) (plain_noNl ha)
  | dbls n =>
    have h := (reads_nat n ha).map fun i => ({ m with doubleSided := decide (i ≠ 0) } : Material F)
    have e : decide ((n : Int) ≠ 0) = decide (n ≠ 0) := by congr 1; simp
    rw [e] at h
    exact known_attr (name := "dbls".toList) (by decide) rfl h (showNat_noNl n)
  | uid n => exact known_attr (name := "uid".toList) (by decide) rfl ((reads_nat n ha).map
      fun c => ({ m with uid := c } : Material F)) (showNat_noNl n)
  | shader n => exact known_attr (name := "shader".toList) (by decide) rfl ((reads_nat n ha).map
      fun c => ({ m with shader := c } : Material F)) (showNat_noNl n)
  | other name vals =>
    obtain ⟨h1, h2, h3⟩ := ha
    exact ⟨attrPiece_skip vals m h1 (materialAttrs_keys.not h2) h3, spaced_attr h1 (items_noNl h3)⟩

theorem readMaterial_src {st : Style} (hst : st.Ok) (m : MatSrc) (hm : m.Ok) (k : Str) (s : St)
    (hs : AtWs (m.text st ++ k) s) : ∃ s', readMaterial s = some ((m.meaning : Material F), s') ∧ AtWs k s' := by
  have htext : m.text st ++ k = st.tab ++ (quote m.name ++ (m.attrs.flatMap MatAttr.text ++ (st.nl ++ k))) := by
    simp [MatSrc.text]
  rw [htext] at hs
  obtain ⟨h1, h2⟩ := attrs_piece (h := materialAttrs) MatAttr.text MatAttr.set m.attrs
    (fun a ha x => (matAttr_piece a (hm.attrs a ha) x).1) (fun a ha => (matAttr_piece (F := F) a (hm.attrs a ha)
      (blankMaterial [])).2) (blankMaterial m.name : Material F)
  have hne : m.attrs.flatMap MatAttr.text ≠ [] := by
    obtain ⟨a, l, e⟩ := List.exists_cons_of_ne_nil hm.some
    rw [e]; simp [MatAttr.text, attr]
  obtain ⟨c, r, hnl, hc⟩ := hst.nl_cons
  have hq := scan_at_quote (hs.dropAll hst.tab_ws) hm.name
  rw [hnl] at hq
  obtain ⟨s', e', a'⟩ := procAttrs_line (good_materialAttrs (F := F)) h1 h2 hne c hc (r ++ k)
    ⟨m.attrs.flatMap MatAttr.text ++ c :: (r ++ k), 0, false, .string, quote m.name⟩ ⟨rfl, rfl, rfl⟩
  refine ⟨s', ?_, ?_⟩
  · rw [readMaterial, P.bind_run]
    simp only [readStr, hq, trimQuote_quote m.name hm.name]
    exact e'
  · have := a'.ws
    refine AtWs.dropAll (w := st.nl) ?_ hst.nl_ws
    rw [hnl]; exact this

/-! ## Faces -/

omit [Uni] in
theorem stop_normals (vs : List Num3) (k : Str) (hk : Stop k) : Stop (vs.flatMap (fun v => ' ' :: v.text) ++ k) := by
  cases vs with
  | nil => exact hk
  | cons v vs => exact stop_cons isStop_sp

theorem reads_cornerNormals (flags : List Nat) (vs : List Num3) (hl : vs.length = (flags.filter hasNormal).length)
    (hv : ∀ v ∈ vs, v.Ok) : Reads (readNormals (flags.map fun n : Nat => (n : Int))) (vs.flatMap fun v => ' ' :: v.text)
      (cornerNormals flags vs : List (Option (Vec3 F))) := by
  induction flags generalizing vs with
  | nil =>
    have : vs = [] := by simpa using hl
    subst this
    exact fun k hk s hs => ⟨s, rfl, hs⟩
  | cons f fs ih =>
    intro k hk s hs
    rw [List.map_cons, readNormals]
    by_cases hf : hasNormal f = true
    · have hf' : (f : Int).toNat &&& 2 ≠ 0 := by simpa [hasNormal] using hf
      rw [List.filter_cons_of_pos hf, List.length_cons] at hl
      cases vs with
      | nil => simp at hl
      | cons v vs =>
        rw [List.flatMap_cons, List.append_assoc] at hs
        have hr := ((Num3.Ok.reads (F := F) (hv v (by simp))).map some).ws isWs_sp
        obtain ⟨s1, e1, a1⟩ := hr _ (stop_normals vs k hk) s hs
        obtain ⟨s2, e2, a2⟩ := ih vs (by simpa using hl) (fun u hu => hv u (by simp [hu])) k hk s1 a1
        refine ⟨s2, ?_, a2⟩
        rw [P.bind_run, readNormal, if_pos hf', e1]
        simp only [P.bind_run, e2, P.pure_run, cornerNormals, if_pos hf]
    · have hf' : ¬((f : Int).toNat &&& 2 ≠ 0) := by simpa [hasNormal] using hf
      rw [List.filter_cons_of_neg hf] at hl
      obtain ⟨s2, e2, a2⟩ := ih vs hl hv k hk s hs
      refine ⟨s2, ?_, a2⟩
      rw [P.bind_run, readNormal, if_neg hf']
      simp only [P.bind_run, e2, P.pure_run, cornerNormals, if_neg hf]

theorem f_V_src (l : List Nat) (h : ∀ i ∈ l, i ≤ maxInt) (x : Face F) :
    AttrPiece (faceAttrs l.length) (attr "V".toList (spaced (l.map showNat))) x { x with verts := l } := by
  have h1 := reads_many (p := readInt) showNat (fun n => (n : Int)) l fun i hi => reads_nat i (h i hi)
  have h2 := h1.map fun l => ({ x with verts := l.map Int.toNat } : Face F)
  have h3 : (l.map (fun n : Nat => (n : Int))).map Int.toNat = l := by
    rw [List.map_map]
    exact (List.map_congr_left fun n _ => Int.toNat_natCast n).trans (List.map_id l)
  rw [h3] at h2
  exact attrPiece (by decide) rfl h2 (spaced_noNl _ (by simp [showNat_noNl]))

theorem faceAttr_piece (n : Nat) (a : FaceAttr) (ha : a.Ok n) (f : Face F) :
    AttrPiece (faceAttrs n) a.text f (a.set f) ∧ Spaced a.text := by
  cases a with
  | verts l =>
    obtain ⟨rfl, h⟩ := ha
    exact ⟨f_V_src l h f, spaced_attr (name := "V".toList) (by decide) (spaced_noNl _ (by simp [showNat_noNl]))⟩
  | mat i => exact known_attr (name := "M".toList) (by decide) rfl ((reads_nat i ha).map
      fun c => ({ f with material := c } : Face F)) (showNat_noNl i)
  | uid i => exact known_attr (name := "UID".toList) (by decide) rfl ((reads_nat i ha).map
      fun c => ({ f with uid := c } : Face F)) (showNat_noNl i)
  | uvs l =>
    obtain ⟨rfl, h⟩ := ha
    have h1 := reads_many (p := readVec2) (fun p : Num × Num => p.1.text ++ ' ' :: p.2.text)
      (fun p => (⟨p.1.value, p.2.value⟩ : Vec2 F)) l fun p hp => reads_vec2 (h p hp).1.numOk (h p hp).2.numOk
    refine known_attr (name := "UV".toList) (by decide) rfl (h1.map fun l => ({ f with uvs := l } : Face F))
      (spaced_noNl _ ?_)
    intro w hw
    obtain ⟨p, hp, rfl⟩ := List.mem_map.1 hw
    simp [(h p hp).1.noNl, (h p hp).2.noNl]
  | normals flags vs =>
    obtain ⟨rfl, h1, h2, h3⟩ := ha
    refine known_attr (h := faceAttrs flags.length) (name := "N".toList) (x := f) (x' := { f with normals := cornerNormals flags vs }) (by decide) rfl ?_ ?_
    · intro k hk s hs
      rw [FaceAttr.value, List.append_assoc] at hs
      have hr := reads_many (p := readInt) showNat (fun n : Nat => (n : Int)) flags fun i hi => reads_nat i (h1 i hi)
      obtain ⟨s1, e1, a1⟩ := hr _ (stop_normals vs k hk) s hs
      obtain ⟨s2, e2, a2⟩ := reads_cornerNormals (F := F) flags vs h2 h3 k hk s1 a1
      refine ⟨s2, ?_, a2⟩
      simp only [P.bind_run, e1, e2, P.pure_run]
    · rw [FaceAttr.value, List.mem_append, not_or]
      refine ⟨spaced_noNl _ (by simp [showNat_noNl]), ?_⟩
      rw [List.mem_flatMap]
      rintro ⟨v, hv, hc⟩
      rcases List.mem_cons.1 hc with hc | hc
      · exact absurd hc (by decide)
      · exact (h3 v hv).noNl hc
  | crs l =>
    obtain ⟨rfl, h⟩ := ha
    have h1 := reads_many (p := readFloat) Num.text (fun x : Num => (x.value : F)) l fun x hx => (h x hx).reads
    refine known_attr (h := faceAttrs l.length) (name := "CRS".toList) (x := f) (x' := f) (by decide) rfl (h1.map fun _ => f) (spaced_noNl _ ?_)
    intro w hw
    obtain ⟨p, hp, rfl⟩ := List.mem_map.1 hw
    exact (h p hp).noNl
  | other name vals =>
    obtain ⟨h1, h2, h3⟩ := ha
    exact ⟨attrPiece_skip vals f h1 ((faceAttrs_keys n).not h2) h3, spaced_attr h1 (items_noNl h3)⟩

theorem readFace_src {st : Style} (hst : st.Ok) (f : FaceSrc) (hf : f.Ok) (k : Str) (s : St)
    (hs : AtWs (f.text st ++ k) s) : ∃ s', readFace s = some ((f.meaning : Face F), s') ∧ AtWs k s' := by
  have htext : f.text st ++ k = st.tab ++ (showNat f.corners ++ (f.attrs.flatMap FaceAttr.text ++ (st.nl ++ k))) := by
    simp [FaceSrc.text]
  rw [htext] at hs
  obtain ⟨h1, h2⟩ := attrs_piece (h := faceAttrs f.corners) FaceAttr.text FaceAttr.set f.attrs
    (fun a ha x => (faceAttr_piece _ a (hf.attrs a ha) x).1) (fun a ha => (faceAttr_piece (F := F) _ a (hf.attrs a ha)
      ⟨0, [], 0, [], []⟩).2) (⟨0, [], 0, [], []⟩ : Face F)
  obtain ⟨a, l, hal⟩ := List.exists_cons_of_ne_nil hf.some
  have hne : f.attrs.flatMap FaceAttr.text ≠ [] := by rw [hal]; simp [FaceAttr.text, attr]
  have hstop : Stop (f.attrs.flatMap FaceAttr.text ++ (st.nl ++ k)) := by
    rw [hal]; exact stop_cons isStop_sp
  obtain ⟨c, r, hnl, hc⟩ := hst.nl_cons
  have hq := scan_at_nat (hs.dropAll hst.tab_ws) hstop
  have hint : readInt s = some ((f.corners : Int), scan s) := by
    simp only [readInt]
    rw [hq]
    simp [atoi_showNat _ hf.corners]
  obtain ⟨s', e', a'⟩ := procAttrs_line (good_faceAttrs (F := F) f.corners) h1 h2 hne c hc (r ++ k) (scan s)
    (by rw [hq, hnl]; exact ⟨rfl, rfl, rfl⟩)
  refine ⟨s', ?_, ?_⟩
  · rw [readFace, P.bind_run, hint]
    simp only [Int.toNat_natCast]
    exact e'
  · refine AtWs.dropAll (w := st.nl) ?_ hst.nl_ws
    rw [hnl]; exact a'.ws

end

end Verif.Mqo
