import Verif.Mqo.TextSpec

/-!
The parts of the round trip of the MQO text: faces, objects, materials, the scene.
-/

namespace Verif.Mqo

open Verif.Geom Verif.Text

set_option linter.unusedSectionVars false

theorem tab1_ws : ∀ c ∈ tab1, isWs c = true := by decide
theorem tab2_ws : ∀ c ∈ tab2, isWs c = true := by decide
theorem tab3_ws : ∀ c ∈ tab3, isWs c = true := by decide

/-! No newline inside values. -/

theorem digits_noNl {w : Str} (h : Digits w) : '\n' ∉ w := by
  intro hc; exact absurd (h _ hc) (by decide)

theorem showNat_noNl (n : Nat) : '\n' ∉ showNat n := digits_noNl (showNat_digits n)

theorem showInt_noNl (i : Int) : '\n' ∉ showInt i := by
  unfold showInt
  split
  · simp [showNat_noNl]
  · exact showNat_noNl _

theorem showBool_noNl (b : Bool) : '\n' ∉ showBool b := by cases b <;> decide

theorem lit_noNl {l : Lit} (h : l.Ok) : '\n' ∉ l.text := by
  obtain ⟨a, f, x⟩ := l
  obtain ⟨_, h2, _, h4, _, h6⟩ := h
  simp only at h2 h4 h6
  simp only [Lit.text, List.mem_append, not_or]
  refine ⟨digits_noNl h2, ?_, ?_⟩
  · cases f with
    | none => simp [Lit.fracText]
    | some g => simp [Lit.fracText, digits_noNl (h4 g rfl)]
  · cases x with
    | none => simp [Lit.expText]
    | some p =>
      obtain ⟨b, d⟩ := p
      cases b <;> simp [Lit.expText, digits_noNl (h6 _ d rfl)]

theorem plain_noNl {t : Str} (h : Plain t) : '\n' ∉ quote t := by
  simp only [quote, List.mem_cons, List.mem_append, List.not_mem_nil, or_false, not_or]
  refine ⟨by decide, ?_, by decide⟩
  intro hc; exact (h _ hc).2.2.1 rfl

theorem spaced_noNl (l : List Str) (h : ∀ w ∈ l, '\n' ∉ w) : '\n' ∉ spaced l := by
  induction l with
  | nil => simp [spaced]
  | cons a l ih =>
    cases l with
    | nil => simpa [spaced] using h a (by simp)
    | cons b l =>
      have := ih fun w hw => h w (by simp [hw])
      simp only [spaced, List.mem_append, List.mem_cons, not_or]
      exact ⟨h a (by simp), by decide, this⟩

theorem spaced_attr {name value : Str} (hn : isWord name = true) (hv : '\n' ∉ value) : Spaced (attr name value) := by
  refine ⟨Or.inr ⟨_, rfl⟩, ?_⟩
  have h1 : '\n' ∉ name := by
    intro hc
    cases name with
    | nil => simp at hc
    | cons c cs =>
      simp only [isWord, Bool.and_eq_true, List.all_eq_true] at hn
      rcases List.mem_cons.1 hc with h | h
      · rw [← h] at hn; exact absurd hn.1 (by decide)
      · exact absurd (hn.2 _ h) (by decide)
  simp [attr, h1, hv]

theorem Spaced.ite {w : Str} (c : Prop) [Decidable c] (h : c → Spaced w) : Spaced (if c then w else []) := by
  split
  · rename_i hc; exact h hc
  · exact ⟨Or.inl rfl, by simp⟩

theorem Spaced.append {a b : Str} (ha : Spaced a) (hb : Spaced b) : Spaced (a ++ b) := by
  refine ⟨?_, by simp [ha.2, hb.2]⟩
  rcases ha.1 with rfl | ⟨r, rfl⟩
  · exact hb.1
  · exact Or.inr ⟨r ++ b, rfl⟩

section
variable {F : Type} [Zero F] [One F] [Neg F] [Mul F] [NumText F] [NumLaws F]

theorem num_noNl {w : Str} {y : F} (h : NumOk w y) : '\n' ∉ w := by
  obtain ⟨l, hl, h⟩ := h
  rcases h with ⟨rfl, _⟩ | ⟨rfl, _⟩
  · exact lit_noNl hl
  · simp [lit_noNl hl]

theorem showVec3_noNl {v : Vec3 F} (h : FinV v) : '\n' ∉ showVec3 v := by
  simp only [showVec3, List.mem_append, List.mem_cons, not_or]
  exact ⟨num_noNl (NumLaws.v_ok _ h.1), by decide, num_noNl (NumLaws.v_ok _ h.2.1), by decide,
    num_noNl (NumLaws.v_ok _ h.2.2)⟩

variable [Uni]

theorem reads_showVec3 {v : Vec3 F} (h : FinV v) : Reads readVec3 (showVec3 v) v :=
  reads_vec3 (NumLaws.v_ok _ h.1) (NumLaws.v_ok _ h.2.1) (NumLaws.v_ok _ h.2.2)

theorem reads_showVec3f {v : Vec3 F} (h : FinV v) : Reads readVec3 (showVec3f v) (round3 v) :=
  reads_vec3 (NumLaws.f3_ok _ h.1) (NumLaws.f3_ok _ h.2.1) (NumLaws.f3_ok _ h.2.2)

/-! Faces. -/

theorem f_V (x : Face F) (l : List Nat) (h : ∀ i ∈ l, i ≤ maxInt) :
    AttrPiece (faceAttrs l.length) (attr "V".toList (spaced (l.map showNat))) x { x with verts := l } := by
  have h1 := reads_many (p := readInt) showNat (fun n => (n : Int)) l fun i hi => reads_nat i (h i hi)
  have h2 := h1.map fun l => ({ x with verts := l.map Int.toNat } : Face F)
  have h3 : (l.map (fun n : Nat => (n : Int))).map Int.toNat = l := by
    rw [List.map_map]
    exact (List.map_congr_left fun n _ => Int.toNat_natCast n).trans (List.map_id l)
  rw [h3] at h2
  exact attrPiece (by decide) rfl h2 (spaced_noNl _ (by simp [showNat_noNl]))

theorem f_M (vn : Nat) (x : Face F) (i : Int) (h : IntOk i) :
    AttrPiece (faceAttrs vn) (attr "M".toList (showInt i)) x { x with material := i } :=
  attrPiece (by decide) rfl ((reads_int i h).map fun i => { x with material := i }) (showInt_noNl i)

theorem f_UID (vn : Nat) (x : Face F) (i : Int) (h : i ≤ maxInt) (hx : x.uid = 0) :
    AttrPiece (faceAttrs vn) (if 0 < i then attr "UID".toList (showInt i) else []) x { x with uid := pos0 i } := by
  refine AttrPiece.ite _ (fun hi => ?_) (fun hi => ?_)
  · rw [pos0, if_pos hi]
    exact attrPiece (by decide) rfl ((reads_int i ⟨by omega, h⟩).map fun i => { x with uid := i }) (showInt_noNl i)
  · rw [pos0, if_neg hi, ← hx]

theorem f_UV (vn : Nat) (x : Face F) (l : List (Vec2 F)) (h : ∀ t ∈ l, NumLaws.fin t.x ∧ NumLaws.fin t.y)
    (hx : x.uvs = []) :
    AttrPiece (faceAttrs vn)
      (if l.length = vn then attr "UV".toList (spaced (l.map fun t => NumText.v t.x ++ ' ' :: NumText.v t.y)) else [])
      x { x with uvs := if l.length = vn then l else [] } := by
  refine AttrPiece.ite _ (fun hl => ?_) (fun hl => ?_)
  · rw [if_pos hl]
    subst hl
    have h1 := reads_many (p := readVec2) (fun t : Vec2 F => NumText.v t.x ++ ' ' :: NumText.v t.y) id l
      fun t ht => reads_vec2 (NumLaws.v_ok _ (h t ht).1) (NumLaws.v_ok _ (h t ht).2)
    have h2 := h1.map fun l => ({ x with uvs := l } : Face F)
    rw [List.map_id] at h2
    refine attrPiece (by decide) rfl h2 (spaced_noNl _ ?_)
    intro w hw
    obtain ⟨t, ht, rfl⟩ := List.mem_map.1 hw
    simp only [List.mem_append, List.mem_cons, not_or]
    exact ⟨num_noNl (NumLaws.v_ok _ (h t ht).1), by decide, num_noNl (NumLaws.v_ok _ (h t ht).2)⟩
  · rw [if_neg hl, ← hx]

def normalFlag (n : Option (Vec3 F)) : Nat := if n.isSome then 2 else 0

def normalText (n : Option (Vec3 F)) : Str := optText (fun v => ' ' :: showVec3 v) n

theorem reads_normals (l : List (Option (Vec3 F))) (h : ∀ v, some v ∈ l → FinV v) :
    Reads (readNormals (l.map fun n => (normalFlag n : Int))) (l.flatMap normalText) l := by
  induction l with
  | nil => exact fun k hk s hs => ⟨s, rfl, hs⟩
  | cons n l ih =>
    have ih := ih fun v hv => h v (by simp [hv])
    intro k hk s hs
    rw [List.flatMap_cons, List.append_assoc] at hs
    have hstop : Stop (l.flatMap normalText ++ k) := by
      cases l with
      | nil => exact hk
      | cons m l =>
        clear ih hs h
        induction (m :: l) with
        | nil => exact hk
        | cons m l ih =>
          cases m with
          | none => simpa [normalText, optText] using ih
          | some v => exact stop_cons isStop_sp
    have h1 : ∃ s1, readNormal (normalFlag n : Int) s = some (n, s1) ∧ AtWs (l.flatMap normalText ++ k) s1 := by
      cases n with
      | none => exact ⟨s, by rw [show (normalFlag (none : Option (Vec3 F)) : Int) = 0 from rfl]; rfl, hs⟩
      | some v =>
        have hr := ((reads_showVec3 (h v (by simp))).map some).ws isWs_sp
        obtain ⟨s1, e1, a1⟩ := hr _ hstop s hs
        refine ⟨s1, ?_, a1⟩
        rw [show (normalFlag (some v) : Int) = 2 from rfl, readNormal, if_pos (by decide)]
        exact e1
    obtain ⟨s1, e1, a1⟩ := h1
    obtain ⟨s2, e2, a2⟩ := ih k hk s1 a1
    refine ⟨s2, ?_, a2⟩
    rw [List.map_cons, readNormals]
    simp only [P.bind_run, e1, e2, P.pure_run]

theorem f_N (vn : Nat) (x : Face F) (l : List (Option (Vec3 F))) (h : ∀ v, some v ∈ l → FinV v)
    (hx : x.normals = []) :
    AttrPiece (faceAttrs vn) (if l.length = vn then attr "N".toList (showNormals l) else [])
      x { x with normals := if l.length = vn then l else [] } := by
  refine AttrPiece.ite _ (fun hl => ?_) (fun hl => ?_)
  · rw [if_pos hl]
    subst hl
    have htext : showNormals l = spaced (l.map fun n => showNat (normalFlag n)) ++ l.flatMap normalText := by
      unfold showNormals
      congr 1
      congr 1
      apply List.map_congr_left
      intro n _
      cases n with
      | none => exact (by decide : ['0'] = showNat 0)
      | some v => exact (by decide : ['2'] = showNat 2)
    have hr : Reads (do
        let flags ← readMany readInt l.length
        let r ← readNormals flags
        return ({ x with normals := r } : Face F)) (showNormals l) { x with normals := l } := by
      intro k hk s hs
      rw [htext, List.append_assoc] at hs
      have hstop : Stop (l.flatMap normalText ++ k) := by
        clear hs h htext hx
        induction l with
        | nil => exact hk
        | cons m l ih =>
          cases m with
          | none => simpa [normalText, optText] using ih
          | some v => exact stop_cons isStop_sp
      have h1 := reads_many (p := readInt) (fun n : Option (Vec3 F) => showNat (normalFlag n))
        (fun n => (normalFlag n : Int)) l fun n _ => reads_nat _ (by unfold normalFlag; split <;> decide)
      obtain ⟨s1, e1, a1⟩ := h1 _ hstop s hs
      obtain ⟨s2, e2, a2⟩ := reads_normals l h k hk s1 a1
      refine ⟨s2, ?_, a2⟩
      simp only [P.bind_run, e1, e2, P.pure_run]
    refine attrPiece (by decide) rfl hr ?_
    rw [htext, List.mem_append, not_or]
    refine ⟨spaced_noNl _ (by simp [showNat_noNl]), ?_⟩
    rw [List.mem_flatMap]
    rintro ⟨n, hn, hc⟩
    cases n with
    | none => simp [normalText, optText] at hc
    | some v =>
      simp only [normalText, optText, List.mem_cons] at hc
      rcases hc with hc | hc
      · exact absurd hc (by decide)
      · exact showVec3_noNl (h v hn) hc
  · rw [if_neg hl, ← hx]

/-- A face line is read as the normalised face. -/
theorem readFace_write (f : Face F) (hf : FaceTextOk f) (k : Str) (s : St) (hs : AtWs (writeFace f ++ k) s) :
    ∃ s', readFace s = some (normFace f, s') ∧ AtWs k s' := by
  set A := attr "V".toList (spaced (f.verts.map showNat)) with hA
  set B := attr "M".toList (showInt f.material) with hB
  set C := (if 0 < f.uid then attr "UID".toList (showInt f.uid) else []) with hC
  set D := (if f.uvs.length = f.verts.length then
      attr "UV".toList (spaced (f.uvs.map fun t => NumText.v t.x ++ ' ' :: NumText.v t.y)) else []) with hD
  set E := (if f.normals.length = f.verts.length then attr "N".toList (showNormals f.normals) else []) with hE
  have htext : writeFace f ++ k = tab2 ++ (showNat f.verts.length ++ ((A ++ (B ++ (C ++ (D ++ E)))) ++ '\n' :: k)) := by
    simp [writeFace, hA, hB, hC, hD, hE]
  rw [htext] at hs
  have hsE : Spaced E := by
    refine Spaced.ite _ fun hl => spaced_attr (by decide) ?_
    unfold showNormals
    rw [List.mem_append, not_or]
    refine ⟨spaced_noNl _ ?_, ?_⟩
    · intro w hw
      obtain ⟨n, _, rfl⟩ := List.mem_map.1 hw
      cases n <;> simp
    · rw [List.mem_flatMap]
      rintro ⟨n, hn, hc⟩
      cases n with
      | none => simp [optText] at hc
      | some v =>
        simp only [optText, List.mem_cons] at hc
        rcases hc with hc | hc
        · exact absurd hc (by decide)
        · exact showVec3_noNl (hf.normals v hn) hc
  have hsD : Spaced D := by
    refine Spaced.ite _ fun hl => spaced_attr (by decide) (spaced_noNl _ ?_)
    intro w hw
    obtain ⟨t, ht, rfl⟩ := List.mem_map.1 hw
    simp only [List.mem_append, List.mem_cons, not_or]
    exact ⟨num_noNl (NumLaws.v_ok _ (hf.uvs t ht).1), by decide, num_noNl (NumLaws.v_ok _ (hf.uvs t ht).2)⟩
  have hsC : Spaced C := Spaced.ite _ fun _ => spaced_attr (by decide) (showInt_noNl _)
  have hsB : Spaced B := spaced_attr (by decide) (showInt_noNl _)
  have hsA : Spaced A := spaced_attr (by decide) (spaced_noNl _ (by simp [showNat_noNl]))
  have hpiece := (f_V (⟨0, [], 0, [], []⟩ : Face F) f.verts hf.verts).trans
    ((f_M f.verts.length _ f.material hf.material).trans
    ((f_UID f.verts.length _ f.uid hf.uid rfl).trans
    ((f_UV f.verts.length _ f.uvs hf.uvs rfl).trans
    (f_N f.verts.length _ f.normals hf.normals rfl) hsE) (hsD.append hsE)) (hsC.append (hsD.append hsE)))
    (hsB.append (hsC.append (hsD.append hsE)))
  have hstop : Stop ((A ++ (B ++ (C ++ (D ++ E)))) ++ '\n' :: k) := stop_cons isStop_sp
  have hsc := scan_at_nat (hs.dropAll tab2_ws) hstop
  have hat : At ((A ++ (B ++ (C ++ (D ++ E)))) ++ '\n' :: k) (scan s) := by rw [hsc]; exact ⟨rfl, rfl, rfl⟩
  obtain ⟨s', e', a'⟩ := procAttrs_piece (good_faceAttrs f.verts.length) hpiece
    (hsA.append (hsB.append (hsC.append (hsD.append hsE)))) (by simp [attr]) k (scan s) hat
  refine ⟨s', ?_, a'.ws.drop (by decide)⟩
  have hint : readInt s = some ((f.verts.length : Int), scan s) := by
    simp only [readInt]
    rw [hsc]
    simp [atoi_showNat _ hf.count]
  rw [readFace, P.bind_run, hint]
  simp only [Int.toNat_natCast]
  exact e'

/-! Objects. -/

theorem o_uid (x : Object F) (i : Int) (h : i ≤ maxInt) (hx : x.uid = 0) :
    ObjPiece objectAttrs (if 0 < i then entry tab1 "uid".toList (showInt i) else []) x { x with uid := pos0 i } := by
  refine ObjPiece.ite _ (fun hi => ?_) (fun hi => ?_)
  · rw [pos0, if_pos hi]
    exact objPiece tab1_ws (by decide) rfl ((reads_int i ⟨by omega, h⟩).map fun i => { x with uid := i })
  · rw [pos0, if_neg hi, ← hx]

theorem o_depth (x : Object F) (i : Int) (h : IntOk i) :
    ObjPiece objectAttrs (entry tab1 "depth".toList (showInt i)) x { x with depth := i } :=
  objPiece tab1_ws (by decide) rfl ((reads_int i h).map fun i => { x with depth := i })

theorem o_folding (x : Object F) (b : Bool) :
    ObjPiece objectAttrs (entry tab1 "folding".toList (showBool b)) x { x with folding := b } := by
  have h := (reads_bool b).map fun i => ({ x with folding := decide (0 < i) } : Object F)
  have hb : decide (0 < (if b then 1 else 0 : Int)) = b := by cases b <;> decide
  rw [hb] at h
  exact objPiece tab1_ws (by decide) rfl h

theorem o_scale (x : Object F) (v : Option (Vec3 F)) (h : ∀ w, v = some w → FinV w) (hx : x.scale = some ⟨1, 1, 1⟩) :
    ObjPiece objectAttrs (optText (fun v => entry tab1 "scale".toList (showVec3 v)) v) x { x with scale := some (v.getD ⟨1, 1, 1⟩) } := by
  cases v with
  | none =>
    have : ({ x with scale := some ((none : Option (Vec3 F)).getD ⟨1, 1, 1⟩) } : Object F) = x := by
      rw [Option.getD_none, ← hx]
    rw [this]; exact ObjPiece.refl _ _
  | some w =>
    exact objPiece tab1_ws (by decide) rfl ((reads_showVec3 (h w rfl)).map fun v => { x with scale := some v })

theorem o_rotation (x : Object F) (v : Option (Vec3 F)) (h : ∀ w, v = some w → FinV w)
    (hx : x.rotation = some ⟨0, 0, 0⟩) :
    ObjPiece objectAttrs (optText (fun v => entry tab1 "rotation".toList (showVec3 ⟨v.y, v.x, v.z⟩)) v) x { x with rotation := some (v.getD ⟨0, 0, 0⟩) } := by
  cases v with
  | none =>
    have : ({ x with rotation := some ((none : Option (Vec3 F)).getD ⟨0, 0, 0⟩) } : Object F) = x := by
      rw [Option.getD_none, ← hx]
    rw [this]; exact ObjPiece.refl _ _
  | some w =>
    have hw := h w rfl
    have hf : FinV (⟨w.y, w.x, w.z⟩ : Vec3 F) := ⟨hw.2.1, hw.1, hw.2.2⟩
    exact objPiece tab1_ws (by decide) rfl
      ((reads_showVec3 hf).map fun v => { x with rotation := some ⟨v.y, v.x, v.z⟩ })

theorem o_translation (x : Object F) (v : Option (Vec3 F)) (h : ∀ w, v = some w → FinV w)
    (hx : x.translation = some ⟨0, 0, 0⟩) :
    ObjPiece objectAttrs (optText (fun v => entry tab1 "translation".toList (showVec3 v)) v) x { x with translation := some (v.getD ⟨0, 0, 0⟩) } := by
  cases v with
  | none =>
    have : ({ x with translation := some ((none : Option (Vec3 F)).getD ⟨0, 0, 0⟩) } : Object F) = x := by
      rw [Option.getD_none, ← hx]
    rw [this]; exact ObjPiece.refl _ _
  | some w =>
    exact objPiece tab1_ws (by decide) rfl ((reads_showVec3 (h w rfl)).map fun v => { x with translation := some v })

theorem o_visible (x : Object F) (b : Bool) (hx : x.visible = true) :
    ObjPiece objectAttrs (if b then [] else entry tab1 "visible".toList ['0']) x { x with visible := b } := by
  cases b with
  | true =>
    have : ({ x with visible := true } : Object F) = x := by rw [← hx]
    rw [this]; exact ObjPiece.refl _ _
  | false =>
    have h := (reads_nat 0 (by decide)).map fun i => ({ x with visible := decide (0 < i) } : Object F)
    exact objPiece tab1_ws (by decide) rfl h

theorem o_locking (x : Object F) (b : Bool) :
    ObjPiece objectAttrs (entry tab1 "locking".toList (showBool b)) x x := by
  rw [showBool_eq]
  exact objPiece_skip tab1_ws (by decide) rfl (by cases b <;> rfl)

theorem o_shading (x : Object F) (i : Int) (h : IntOk i) :
    ObjPiece objectAttrs (entry tab1 "shading".toList (showInt i)) x { x with shading := i } :=
  objPiece tab1_ws (by decide) rfl ((reads_int i h).map fun i => { x with shading := i })

theorem o_facet (x : Object F) (y : F) (h : NumLaws.fin y) :
    ObjPiece objectAttrs (entry tab1 "facet".toList (NumText.v y)) x { x with facet := y } :=
  objPiece tab1_ws (by decide) rfl ((reads_num (NumLaws.v_ok y h)).map fun y => { x with facet := y })

theorem o_mirror [DecidableEq F] (x : Object F) (i : Int) (y : F) (hi : IntOk i) (hy : NumLaws.fin y)
    (hx : x.mirror = 0) (hx2 : x.mirrorDis = 0) :
    ObjPiece objectAttrs (if i ≠ 0 ∨ y ≠ 0 then entry tab1 "mirror".toList (showInt i)
        ++ entry tab1 "mirror_dis".toList (NumText.f6 y) else [])
      x { x with mirror := i, mirrorDis := if i ≠ 0 ∨ y ≠ 0 then NumLaws.r6 y else 0 } := by
  refine ObjPiece.ite _ (fun hc => ?_) (fun hc => ?_)
  · rw [if_pos hc]
    have h1 : ObjPiece objectAttrs (entry tab1 "mirror".toList (showInt i)) x { x with mirror := i } :=
      objPiece tab1_ws (by decide) rfl ((reads_int i hi).map fun i => { x with mirror := i })
    have h2 : ObjPiece objectAttrs (entry tab1 "mirror_dis".toList (NumText.f6 y)) { x with mirror := i }
        { x with mirror := i, mirrorDis := NumLaws.r6 y } :=
      objPiece tab1_ws (by decide) rfl
        ((reads_num (NumLaws.f6_ok y hy)).map fun y => { x with mirror := i, mirrorDis := y })
    exact h1.trans h2
  · rw [if_neg hc]
    have : i = 0 := by
      by_contra h; exact hc (Or.inl h)
    cases x
    simp only at hx hx2
    rw [this, hx, hx2]

theorem o_patch (x : Object F) (i j : Int) (hi : i ≤ maxInt) (hj : IntOk j) (hx : x.patch = 0)
    (hx2 : x.patchSegment = 0) :
    ObjPiece objectAttrs (if 0 < i then entry tab1 "patch".toList (showInt i)
        ++ entry tab1 "segment".toList (showInt j) else [])
      x { x with patch := pos0 i, patchSegment := if 0 < i then j else 0 } := by
  refine ObjPiece.ite _ (fun hc => ?_) (fun hc => ?_)
  · rw [if_pos hc, pos0, if_pos hc]
    have h1 : ObjPiece objectAttrs (entry tab1 "patch".toList (showInt i)) x { x with patch := i } :=
      objPiece tab1_ws (by decide) rfl ((reads_int i ⟨by omega, hi⟩).map fun i => { x with patch := i })
    have h2 : ObjPiece objectAttrs (entry tab1 "segment".toList (showInt j)) { x with patch := i }
        { x with patch := i, patchSegment := j } :=
      objPiece tab1_ws (by decide) rfl ((reads_int j hj).map fun j => { x with patch := i, patchSegment := j })
    exact h1.trans h2
  · rw [if_neg hc, pos0, if_neg hc]
    cases x
    simp only at hx hx2
    rw [hx, hx2]

theorem o_color (x : Object F) (v : Option (Vec3 F)) (h : ∀ w, v = some w → FinV w) (hx : x.color = none) :
    ObjPiece objectAttrs (optText (fun v => entry tab1 "color".toList (showVec3f v)) v) x { x with color := v.map round3 } := by
  cases v with
  | none =>
    have : ({ x with color := (none : Option (Vec3 F)).map round3 } : Object F) = x := by
      rw [Option.map_none, ← hx]
    rw [this]; exact ObjPiece.refl _ _
  | some w =>
    exact objPiece tab1_ws (by decide) rfl ((reads_showVec3f (h w rfl)).map fun v => { x with color := some v })

theorem o_vertex (x : Object F) (l : List (Vec3 F)) (hl : l.length ≤ maxInt) (h : ∀ v ∈ l, FinV v) :
    ObjPiece objectAttrs (entry tab1 "vertex".toList (showNat l.length ++ (" {\n".toList ++
      (l.flatMap (fun v => tab2 ++ (showVec3 v ++ ['\n'])) ++ (tab1 ++ ['}']))))) x { x with vertexes := l } := by
  have hr := reads_procArray (init := fun o : Object F => { o with vertexes := [] })
    (elem := fun o : Object F => do
      let v ← readVec3
      return { o with vertexes := o.vertexes ++ [v] })
    (fun v => tab2 ++ (showVec3 v ++ ['\n'])) (fun o v => { o with vertexes := o.vertexes ++ [v] }) l x
    tab1_ws hl (by
      intro v hv y k s hs
      rw [List.append_assoc, List.append_assoc, List.singleton_append] at hs
      obtain ⟨s', e', a'⟩ := (reads_showVec3 (h v hv)).map
        (fun v => ({ y with vertexes := y.vertexes ++ [v] } : Object F)) ('\n' :: k) (stop_cons (by decide)) s
        (hs.dropAll tab2_ws)
      exact ⟨s', e', a'.drop (by decide)⟩)
  have hfold : ∀ (l : List (Vec3 F)) (y : Object F),
      l.foldl (fun o v => { o with vertexes := o.vertexes ++ [v] }) y = { y with vertexes := y.vertexes ++ l } := by
    intro l
    induction l with
    | nil => intro y; simp
    | cons v l ih => intro y; rw [List.foldl_cons, ih]; simp
  rw [hfold] at hr
  simp only [List.nil_append] at hr
  exact objPiece tab1_ws (by decide) rfl hr

theorem o_face (x : Object F) (l : List (Face F)) (hl : l.length ≤ maxInt) (h : ∀ f ∈ l, FaceTextOk f) :
    ObjPiece objectAttrs (entry tab1 "face".toList (showNat l.length ++ (" {\n".toList ++
      (l.flatMap writeFace ++ (tab1 ++ ['}']))))) x { x with faces := l.map normFace } := by
  have hr := reads_procArray (init := fun o : Object F => { o with faces := [] })
    (elem := fun o : Object F => do
      let f ← readFace
      return { o with faces := o.faces ++ [f] })
    writeFace (fun o f => { o with faces := o.faces ++ [normFace f] }) l x
    tab1_ws hl (by
      intro f hf y k s hs
      obtain ⟨s', e', a'⟩ := readFace_write f (h f hf) k s hs
      exact ⟨s', by simp only [P.bind_run, e', P.pure_run], a'⟩)
  have hfold : ∀ (l : List (Face F)) (y : Object F),
      l.foldl (fun o f => { o with faces := o.faces ++ [normFace f] }) y
        = { y with faces := y.faces ++ l.map normFace } := by
    intro l
    induction l with
    | nil => intro y; simp
    | cons v l ih => intro y; rw [List.foldl_cons, ih]; simp
  rw [hfold] at hr
  simp only [List.nil_append] at hr
  exact objPiece tab1_ws (by decide) rfl hr

theorem readUIDs_reads (u : Nat → Int) (n : Nat) (hu : ∀ i < n, IntOk (u i)) (k : Str) :
    ∀ (j i : Nat) (m : List (Int × Int)) (s : St), i + j = n →
      AtWs ((List.range' i j).flatMap (fun i => tab3 ++ (showInt (u i) ++ ['\n'])) ++ k) s →
      ∃ s', readUIDs j i m s = some ((List.range' i j).foldl (fun m i => setKey (u i) (i : Int) m) m, s') ∧ AtWs k s' := by
  intro j
  induction j with
  | zero => intro i m s _ hs; exact ⟨s, rfl, hs⟩
  | succ j ih =>
    intro i m s hij hs
    rw [List.range'_succ, List.flatMap_cons, List.append_assoc, List.append_assoc, List.append_assoc,
      List.singleton_append] at hs
    obtain ⟨s1, e1, a1⟩ := reads_int (u i) (hu i (by omega)) _ (stop_cons (by decide)) s (hs.dropAll tab3_ws)
    obtain ⟨s2, e2, a2⟩ := ih (i + 1) (setKey (u i) (i : Int) m) s1 (by omega) (a1.drop (by decide))
    refine ⟨s2, ?_, a2⟩
    rw [readUIDs, P.bind_run, e1]
    simp only
    rw [e2, List.range'_succ, List.foldl_cons]

theorem o_vertexattr (x o : Object F) (hv : x.vertexes = o.vertexes) (hx : x.vertexByUID = [])
    (hu : ∀ i < o.vertexes.length, IntOk (uidLine o.vertexByUID i)) :
    ObjPiece objectAttrs (writeUIDs o) x { x with vertexByUID := normUIDs o } := by
  unfold writeUIDs normUIDs
  refine ObjPiece.ite _ (fun hc => ?_) (fun hc => by rw [if_neg hc, ← hx])
  rw [if_pos hc]
  set U := (List.range o.vertexes.length).flatMap
    (fun i => tab3 ++ (showInt (uidLine o.vertexByUID i) ++ ['\n'])) with hU
  set M := (List.range o.vertexes.length).foldl (fun m i => setKey (uidLine o.vertexByUID i) (i : Int) m) [] with hM
  have hin : ObjPiece vertexAttrs (entry tab2 "uid".toList ('{' :: '\n' :: (U ++ (tab2 ++ ['}'])))) x
      { x with vertexByUID := M } := by
    refine objPiece tab2_ws (by decide) rfl ?_
    intro k hk s hs
    have htext : ('{' :: '\n' :: (U ++ (tab2 ++ ['}']))) ++ k = '{' :: ('\n' :: (U ++ (tab2 ++ '}' :: k))) := by simp
    rw [htext] at hs
    have h1 := skip_at_punct hs (by decide)
    have a1 : AtWs (U ++ (tab2 ++ '}' :: k)) (⟨'\n' :: (U ++ (tab2 ++ '}' :: k)), 0, false, .ch '{', ['{']⟩ : St) :=
      (At.ws ⟨rfl, rfl, rfl⟩ : AtWs ('\n' :: (U ++ (tab2 ++ '}' :: k))) _).drop (by decide)
    obtain ⟨s2, e2, a2⟩ := readUIDs_reads (uidLine o.vertexByUID) o.vertexes.length hu (tab2 ++ '}' :: k)
      o.vertexes.length 0 [] _ (by simp) (by rw [← List.range_eq_range']; exact a1)
    rw [← List.range_eq_range', ← hM] at e2
    have h3 := skip_at_punct (a2.dropAll tab2_ws) (by decide)
    refine ⟨⟨k, 0, false, .ch '}', ['}']⟩, ?_, At.ws ⟨rfl, rfl, rfl⟩⟩
    simp only [P.bind_run, h1, hv, hx, e2, h3, P.pure_run]
  have hout := objPiece (h := objectAttrs) (ind := tab1) (key := "vertexattr".toList) (x := x) tab1_ws (by decide) rfl
    (reads_procObj good_vertexAttrs hin tab1_ws)
  have htext : tab1 ++ ("vertexattr {\n".toList ++ (tab2 ++ ("uid {\n".toList ++ (U ++
      (tab2 ++ ("}\n".toList ++ (tab1 ++ "}\n".toList)))))))
      = entry tab1 "vertexattr".toList ('{' :: '\n' :: (entry tab2 "uid".toList ('{' :: '\n' :: (U ++ (tab2 ++ ['}'])))
        ++ (tab1 ++ ['}']))) := by
    simp [entry]
  rw [htext]
  exact hout

/-- The entries of an object. -/
theorem object_piece [DecidableEq F] (o : Object F) (ho : ObjectTextOk o) :
    ObjPiece objectAttrs (objectText o) (newObject NumText.facet o.name) (normObject o) := by
  have h := o_uid (F := F) (newObject NumText.facet o.name) o.uid ho.uid rfl
  dsimp only [newObject] at h
  replace h := h.trans (o_depth (F := F) _ o.depth ho.depth)
  dsimp only at h
  replace h := h.trans (o_folding (F := F) _ o.folding)
  dsimp only at h
  replace h := h.trans (o_scale (F := F) _ o.scale ho.scale rfl)
  dsimp only at h
  replace h := h.trans (o_rotation (F := F) _ o.rotation ho.rotation rfl)
  dsimp only at h
  replace h := h.trans (o_translation (F := F) _ o.translation ho.translation rfl)
  dsimp only at h
  replace h := h.trans (o_visible (F := F) _ o.visible rfl)
  dsimp only at h
  replace h := h.trans (o_locking (F := F) _ o.locked)
  replace h := h.trans (o_shading (F := F) _ o.shading ho.shading)
  dsimp only at h
  replace h := h.trans (o_facet (F := F) _ o.facet ho.facet)
  dsimp only at h
  replace h := h.trans (o_mirror (F := F) _ o.mirror o.mirrorDis ho.mirror ho.mirrorDis rfl rfl)
  dsimp only at h
  replace h := h.trans (o_patch (F := F) _ o.patch o.patchSegment ho.patch ho.segment rfl rfl)
  dsimp only at h
  replace h := h.trans (o_color (F := F) _ o.color ho.color rfl)
  dsimp only at h
  replace h := h.trans (o_vertex (F := F) _ o.vertexes ho.vertexes ho.points)
  dsimp only at h
  replace h := h.trans (o_vertexattr (F := F) _ o rfl rfl ho.uids)
  dsimp only at h
  replace h := h.trans (o_face (F := F) _ o.faces ho.faces ho.face)
  dsimp only at h
  simp only [List.append_assoc] at h
  exact h

/-- An object is read as the normalised object. -/
theorem readObject_write [DecidableEq F] (o : Object F) (ho : ObjectTextOk o) (k : Str) (s : St)
    (hs : AtWs (writeObject o ++ k) s) : (scan s).tok = .ident ∧ (scan s).text = "Object".toList ∧
      ∃ s', readObject (scan s) = some (normObject o, s') ∧ AtWs k s' := by
  have hread := reads_procObj (good_objectAttrs (F := F)) (object_piece o ho) (ind := []) (by simp)
  have htext : writeObject o ++ k = "Object".toList ++ ' ' :: (quote o.name ++ ' ' ::
      (('{' :: '\n' :: (objectText o ++ ([] ++ ['}']))) ++ '\n' :: k)) := by
    unfold writeObject
    generalize objectText o = w
    rw [show "Object ".toList = "Object".toList ++ [' '] from by decide,
      show " {\n".toList = [' ', '{', '\n'] from by decide, show "}\n".toList = ['}', '\n'] from by decide]
    simp only [List.append_assoc, List.cons_append, List.nil_append]
  rw [htext] at hs
  have hsc := scan_at_word hs (by decide) (stop_cons isStop_sp)
  refine ⟨by rw [hsc], by rw [hsc], ?_⟩
  have a1 : AtWs (quote o.name ++ ' ' :: (('{' :: '\n' :: (objectText o ++ ([] ++ ['}']))) ++ '\n' :: k)) (scan s) := by
    rw [hsc]
    exact (At.ws ⟨rfl, rfl, rfl⟩ : AtWs (' ' :: _) _).drop isWs_sp
  obtain ⟨s2, e2, a2⟩ := reads_str o.name ho.name _ (stop_cons isStop_sp) (scan s) a1
  obtain ⟨s3, e3, a3⟩ := hread ('\n' :: k) (stop_cons (by decide)) s2 (a2.drop isWs_sp)
  refine ⟨s3, ?_, a3.drop (by decide)⟩
  rw [readObject, P.bind_run, e2]
  exact e3

end

end Verif.Mqo
