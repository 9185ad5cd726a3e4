import Verif.Mqo.TextRound

/-!
The remaining parts of the round trip of the MQO text: materials, shader parameters, the scene, and the
loop over the blocks of the file.
-/

namespace Verif.Mqo

open Verif.Geom Verif.Text

set_option linter.unusedSectionVars false

section
variable {F : Type} [Zero F] [One F] [Neg F] [Mul F] [NumText F] [NumLaws F] [Uni]

/-! Materials. -/

theorem m_shader (x : Material F) (i : Int) (h : IntOk i) (hx : x.shader = 0) :
    AttrPiece materialAttrs (if i ≠ 0 then attr "shader".toList (showInt i) else []) x { x with shader := i } := by
  refine AttrPiece.ite _ (fun hi => ?_) (fun hi => ?_)
  · exact attrPiece (by decide) rfl ((reads_int i h).map fun i => { x with shader := i }) (showInt_noNl i)
  · have : i = 0 := by by_contra hc; exact hi hc
    rw [this, ← hx]

theorem m_dbls (x : Material F) (b : Bool) (hx : x.doubleSided = false) :
    AttrPiece materialAttrs (if b then attr "dbls".toList (showBool b) else []) x { x with doubleSided := b } := by
  refine AttrPiece.ite _ (fun hb => ?_) (fun hb => ?_)
  · have h := (reads_bool b).map fun i => ({ x with doubleSided := decide (i ≠ 0) } : Material F)
    have hb' : decide ((if b then 1 else 0 : Int) ≠ 0) = b := by cases b <;> decide
    rw [hb'] at h
    exact attrPiece (by decide) rfl h (showBool_noNl b)
  · have : b = false := by cases b <;> simp_all
    rw [this, ← hx]

theorem m_uid (x : Material F) (i : Int) (h : i ≤ maxInt) (hx : x.uid = 0) :
    AttrPiece materialAttrs (if 0 < i then attr "uid".toList (showInt i) else []) x { x with uid := pos0 i } := by
  refine AttrPiece.ite _ (fun hi => ?_) (fun hi => ?_)
  · rw [pos0, if_pos hi]
    exact attrPiece (by decide) rfl ((reads_int i ⟨by omega, h⟩).map fun i => { x with uid := i }) (showInt_noNl i)
  · rw [pos0, if_neg hi, ← hx]

theorem col_noNl {c : Vec4 F} (h : NumLaws.fin c.x ∧ NumLaws.fin c.y ∧ NumLaws.fin c.z ∧ NumLaws.fin c.w) :
    '\n' ∉ spaced [NumText.f3 c.x, NumText.f3 c.y, NumText.f3 c.z, NumText.f3 c.w] := by
  refine spaced_noNl _ ?_
  intro w hw
  simp only [List.mem_cons, List.not_mem_nil, or_false] at hw
  rcases hw with rfl | rfl | rfl | rfl
  · exact num_noNl (NumLaws.f3_ok _ h.1)
  · exact num_noNl (NumLaws.f3_ok _ h.2.1)
  · exact num_noNl (NumLaws.f3_ok _ h.2.2.1)
  · exact num_noNl (NumLaws.f3_ok _ h.2.2.2)

theorem m_col (x : Material F) (c : Vec4 F)
    (h : NumLaws.fin c.x ∧ NumLaws.fin c.y ∧ NumLaws.fin c.z ∧ NumLaws.fin c.w) :
    AttrPiece materialAttrs
      (attr "col".toList (spaced [NumText.f3 c.x, NumText.f3 c.y, NumText.f3 c.z, NumText.f3 c.w]))
      x { x with color := ⟨NumLaws.r3 c.x, NumLaws.r3 c.y, NumLaws.r3 c.z, NumLaws.r3 c.w⟩ } :=
  attrPiece (by decide) rfl
    ((reads_vec4 (NumLaws.f3_ok _ h.1) (NumLaws.f3_ok _ h.2.1) (NumLaws.f3_ok _ h.2.2.1)
      (NumLaws.f3_ok _ h.2.2.2)).map fun c => { x with color := c }) (col_noNl h)

theorem m_dif (x : Material F) (y : F) (h : NumLaws.fin y) :
    AttrPiece materialAttrs (attr "dif".toList (NumText.f3 y)) x { x with diffuse := NumLaws.r3 y } :=
  attrPiece (by decide) rfl ((reads_num (NumLaws.f3_ok y h)).map fun y => { x with diffuse := y })
    (num_noNl (NumLaws.f3_ok y h))

theorem m_amb (x : Material F) (y : F) (h : NumLaws.fin y) :
    AttrPiece materialAttrs (attr "amb".toList (NumText.f3 y)) x { x with ambient := NumLaws.r3 y } :=
  attrPiece (by decide) rfl ((reads_num (NumLaws.f3_ok y h)).map fun y => { x with ambient := y })
    (num_noNl (NumLaws.f3_ok y h))

theorem m_emi (x : Material F) (y : F) (h : NumLaws.fin y) :
    AttrPiece materialAttrs (attr "emi".toList (NumText.f3 y)) x { x with emission := NumLaws.r3 y } :=
  attrPiece (by decide) rfl ((reads_num (NumLaws.f3_ok y h)).map fun y => { x with emission := y })
    (num_noNl (NumLaws.f3_ok y h))

theorem m_spc (x : Material F) (y : F) (h : NumLaws.fin y) :
    AttrPiece materialAttrs (attr "spc".toList (NumText.f3 y)) x { x with specular := NumLaws.r3 y } :=
  attrPiece (by decide) rfl ((reads_num (NumLaws.f3_ok y h)).map fun y => { x with specular := y })
    (num_noNl (NumLaws.f3_ok y h))

theorem m_power (x : Material F) (y : F) (h : NumLaws.fin y) :
    AttrPiece materialAttrs (attr "power".toList (NumText.f2 y)) x { x with power := NumLaws.r2 y } :=
  attrPiece (by decide) rfl ((reads_num (NumLaws.f2_ok y h)).map fun y => { x with power := y })
    (num_noNl (NumLaws.f2_ok y h))

theorem m_tex (x : Material F) (t : Str) (h : Plain (slashes t)) (hx : x.texture = []) :
    AttrPiece materialAttrs (if t ≠ [] then attr "tex".toList (quote (slashes t)) else [])
      x { x with texture := slashes t } := by
  refine AttrPiece.ite _ (fun hi => ?_) (fun hi => ?_)
  · exact attrPiece (by decide) rfl ((reads_str _ h).map fun t => { x with texture := t }) (plain_noNl h)
  · have : t = [] := by by_contra hc; exact hi hc
    rw [this, show slashes [] = [] from rfl, ← hx]

theorem m_aplane (x : Material F) (t : Str) (h : Plain (slashes t)) (hx : x.alphaTexture = []) :
    AttrPiece materialAttrs (if t ≠ [] then attr "aplane".toList (quote (slashes t)) else [])
      x { x with alphaTexture := slashes t } := by
  refine AttrPiece.ite _ (fun hi => ?_) (fun hi => ?_)
  · exact attrPiece (by decide) rfl ((reads_str _ h).map fun t => { x with alphaTexture := t }) (plain_noNl h)
  · have : t = [] := by by_contra hc; exact hi hc
    rw [this, show slashes [] = [] from rfl, ← hx]

theorem m_bump (x : Material F) (t : Str) (h : Plain (slashes t)) (hx : x.bumpTexture = []) :
    AttrPiece materialAttrs (if t ≠ [] then attr "bump".toList (quote (slashes t)) else [])
      x { x with bumpTexture := slashes t } := by
  refine AttrPiece.ite _ (fun hi => ?_) (fun hi => ?_)
  · exact attrPiece (by decide) rfl ((reads_str _ h).map fun t => { x with bumpTexture := t }) (plain_noNl h)
  · have : t = [] := by by_contra hc; exact hi hc
    rw [this, show slashes [] = [] from rfl, ← hx]

/-- The attributes of a material line. -/
def materialText (m : Material F) : Str :=
  (if m.shader ≠ 0 then attr "shader".toList (showInt m.shader) else [])
  ++ ((if m.doubleSided then attr "dbls".toList (showBool m.doubleSided) else [])
  ++ ((if 0 < m.uid then attr "uid".toList (showInt m.uid) else [])
  ++ (attr "col".toList (spaced [NumText.f3 m.color.x, NumText.f3 m.color.y, NumText.f3 m.color.z,
      NumText.f3 m.color.w])
  ++ (attr "dif".toList (NumText.f3 m.diffuse)
  ++ (attr "amb".toList (NumText.f3 m.ambient)
  ++ (attr "emi".toList (NumText.f3 m.emission)
  ++ (attr "spc".toList (NumText.f3 m.specular)
  ++ (attr "power".toList (NumText.f2 m.power)
  ++ ((if m.texture ≠ [] then attr "tex".toList (quote (slashes m.texture)) else [])
  ++ ((if m.alphaTexture ≠ [] then attr "aplane".toList (quote (slashes m.alphaTexture)) else [])
  ++ (if m.bumpTexture ≠ [] then attr "bump".toList (quote (slashes m.bumpTexture)) else [])))))))))))

/-- A piece together with the shape of its text, so that pieces can be chained. -/
def SPiece {σ : Type} (h : Handlers σ) (w : Str) (x x' : σ) : Prop := AttrPiece h w x x' ∧ Spaced w

theorem SPiece.trans {σ : Type} {h : Handlers σ} {w1 w2 : Str} {x y z : σ} (h1 : SPiece h w1 x y)
    (h2 : SPiece h w2 y z) : SPiece h (w1 ++ w2) x z :=
  ⟨h1.1.trans h2.1 h2.2, h1.2.append h2.2⟩

theorem material_piece (m : Material F) (hm : MaterialTextOk m) :
    SPiece materialAttrs (materialText m) { emptyMaterial with name := m.name } (normMaterial0 m) := by
  have h := And.intro
    (m_shader (F := F) ⟨m.name, 0, ⟨0, 0, 0, 0⟩, 0, 0, 0, 0, 0, [], [], [], none, false, 0, none⟩ m.shader hm.shader rfl)
    (Spaced.ite (m.shader ≠ 0) fun _ => spaced_attr (name := "shader".toList) (by decide) (showInt_noNl m.shader))
  change SPiece _ _ _ _ at h
  dsimp only at h
  replace h := h.trans ⟨m_dbls (F := F) _ m.doubleSided rfl,
    Spaced.ite _ fun _ => spaced_attr (by decide) (showBool_noNl _)⟩
  dsimp only at h
  replace h := h.trans ⟨m_uid (F := F) _ m.uid hm.uid rfl,
    Spaced.ite _ fun _ => spaced_attr (by decide) (showInt_noNl _)⟩
  dsimp only at h
  replace h := h.trans ⟨m_col (F := F) _ m.color hm.color, spaced_attr (by decide) (col_noNl hm.color)⟩
  dsimp only at h
  replace h := h.trans ⟨m_dif (F := F) _ m.diffuse hm.diffuse,
    spaced_attr (by decide) (num_noNl (NumLaws.f3_ok _ hm.diffuse))⟩
  dsimp only at h
  replace h := h.trans ⟨m_amb (F := F) _ m.ambient hm.ambient,
    spaced_attr (by decide) (num_noNl (NumLaws.f3_ok _ hm.ambient))⟩
  dsimp only at h
  replace h := h.trans ⟨m_emi (F := F) _ m.emission hm.emission,
    spaced_attr (by decide) (num_noNl (NumLaws.f3_ok _ hm.emission))⟩
  dsimp only at h
  replace h := h.trans ⟨m_spc (F := F) _ m.specular hm.specular,
    spaced_attr (by decide) (num_noNl (NumLaws.f3_ok _ hm.specular))⟩
  dsimp only at h
  replace h := h.trans ⟨m_power (F := F) _ m.power hm.power,
    spaced_attr (by decide) (num_noNl (NumLaws.f2_ok _ hm.power))⟩
  dsimp only at h
  replace h := h.trans ⟨m_tex (F := F) _ m.texture hm.texture rfl,
    Spaced.ite _ fun _ => spaced_attr (by decide) (plain_noNl hm.texture)⟩
  dsimp only at h
  replace h := h.trans ⟨m_aplane (F := F) _ m.alphaTexture hm.alphaTexture rfl,
    Spaced.ite _ fun _ => spaced_attr (by decide) (plain_noNl hm.alphaTexture)⟩
  dsimp only at h
  replace h := h.trans ⟨m_bump (F := F) _ m.bumpTexture hm.bumpTexture rfl,
    Spaced.ite _ fun _ => spaced_attr (by decide) (plain_noNl hm.bumpTexture)⟩
  dsimp only at h
  simp only [List.append_assoc] at h
  exact h

/-- A material line is read as the normalised material. -/
theorem readMaterial_write (m : Material F) (hm : MaterialTextOk m) (k : Str) (s : St)
    (hs : AtWs (writeMaterial m ++ k) s) : ∃ s', readMaterial s = some (normMaterial0 m, s') ∧ AtWs k s' := by
  have htext : writeMaterial m ++ k = tab1 ++ (quote m.name ++ (materialText m ++ '\n' :: k)) := by
    unfold writeMaterial materialText
    simp only [List.append_assoc, List.cons_append, List.nil_append]
  rw [htext] at hs
  have hsc := scan_at_quote (hs.dropAll tab1_ws) hm.name
  have hp := material_piece m hm
  have hne : materialText m ≠ [] := by
    intro h
    have : ' ' ∈ materialText m := by simp [materialText, attr]
    rw [h] at this
    simp at this
  have hat : At (materialText m ++ '\n' :: k) (scan s) := by rw [hsc]; exact ⟨rfl, rfl, rfl⟩
  obtain ⟨s', e', a'⟩ := procAttrs_piece (good_materialAttrs (F := F)) hp.1 hp.2 hne k (scan s) hat
  refine ⟨s', ?_, a'.ws.drop (by decide)⟩
  have hstr : readStr s = some (m.name, scan s) := by
    simp only [readStr]
    rw [hsc]
    simp only [trimQuote_quote _ hm.name]
  rw [readMaterial, P.bind_run, hstr]
  exact e'

/-! Shader parameters. -/

theorem scan_word' (w k : Str) (hw : isWord w = true) (hk : ∀ d r, k = d :: r → isIdent d = false) (s : St)
    (hs : AtWs (w ++ k) s) : scan s = ⟨k, 0, false, .ident, w⟩ := by
  rw [hs.scan_eq]
  cases w with
  | nil => simp [isWord] at hw
  | cons c cs =>
    simp only [isWord, Bool.and_eq_true, List.all_eq_true] at hw
    obtain ⟨h1, h2, h3⟩ := wordStart_facts hw.1
    have hc : ∀ d ∈ cs, isIdent d = true := fun d hd => isIdent_of_wordChar (hw.2 d hd)
    have ht : token (c :: (cs ++ k)) = ⟨.ident, c :: cs, k, 0⟩ := by
      rw [token, if_pos h1, takeWhile_stop hc hk, dropWhile_stop hc hk]
    rw [List.cons_append, scan_of c _ h2 h3 _ _ _ _ (by rw [ht]), ht]

theorem trimQuote_word (w : Str) (hw : isWord w = true) : trimQuote w = w := by
  have hq : ∀ c ∈ w, c ≠ '"' := by
    rintro c hc rfl
    cases w with
    | nil => simp at hc
    | cons d w =>
      simp only [isWord, Bool.and_eq_true, List.all_eq_true] at hw
      rcases List.mem_cons.1 hc with h | h
      · rw [← h] at hw; exact absurd hw.1 (by decide)
      · exact absurd (hw.2 _ h) (by decide)
  have hd : ∀ l : Str, (∀ c ∈ l, c ≠ '"') → l.dropWhile (· == '"') = l := by
    intro l hl
    cases l with
    | nil => rfl
    | cons c l => simp [hl c (by simp)]
  rw [trimQuote, hd w hq, hd _ (by simpa using hq), List.reverse_reverse]

theorem reads_word (w : Str) (hw : isWord w = true) : Reads readStr w w := by
  intro k hk s hs
  refine ⟨⟨k, 0, false, .ident, w⟩, ?_, At.ws ⟨rfl, rfl, rfl⟩⟩
  simp only [readStr, scan_at_word hs hw hk, trimQuote_word w hw]

theorem reads_ident (w : Str) (hw : isWord w = true) : Reads readIdent w w := by
  intro k hk s hs
  refine ⟨⟨k, 0, false, .ident, w⟩, ?_, At.ws ⟨rfl, rfl, rfl⟩⟩
  simp only [readIdent, scan_at_word hs hw hk]

theorem reads_typed (p : Param F) (hp : ParamOk p) : Reads (readTyped (paramType p)) (showParam p) p := by
  cases p with
  | int i => exact (reads_int i hp).map _
  | float x => exact (reads_num (NumLaws.v_ok x hp)).map _
  | bool b =>
    intro k hk s hs
    have hs' : AtWs (showNat (if b then 1 else 0) ++ k) s := by
      have : showParam (Param.bool b : Param F) = showNat (if b then 1 else 0) := by
        show showBool b = _
        exact showBool_eq b
      rw [← this]; exact hs
    refine ⟨⟨k, 0, false, .int, showNat (if b then 1 else 0)⟩, ?_, At.ws ⟨rfl, rfl, rfl⟩⟩
    have hr : readStr s = some (trimQuote (showNat (if b then 1 else 0)),
        (⟨k, 0, false, .int, showNat (if b then 1 else 0)⟩ : St)) := by
      simp only [readStr, scan_at_nat hs' hk]
    show (readTyped "bool".toList : P (Param F)) s = _
    rw [readTyped, if_neg (by decide), if_neg (by decide), if_pos rfl]
    simp only [P.bind_run, hr, P.pure_run]
    cases b <;> rfl
  | str t => exact absurd hp (by simp [ParamOk])
  | color c => exact absurd hp (by simp [ParamOk])

theorem paramType_word (p : Param F) : isWord (paramType p) = true ∧ paramType p ≠ ['.'] := by
  cases p <;> exact ⟨by simp only [paramType]; decide, by simp only [paramType]; decide⟩

theorem readParam_write (p : Str × Param F) (hn : ParamName p.1) (hp : ParamOk p.2) (k : Str) (s : St)
    (hs : AtWs (writeParam p ++ k) s) : ∃ s', readTypedKeyValue s = some (p, s') ∧ AtWs k s' := by
  obtain ⟨n, v⟩ := p
  simp only at hn hp
  have htext : writeParam (n, v) ++ k
      = tab3 ++ (n ++ ' ' :: (paramType v ++ ' ' :: (showParam v ++ '\n' :: k))) := by
    simp only [writeParam, List.append_assoc, List.cons_append, List.nil_append]
  rw [htext] at hs
  replace hs := hs.dropAll tab3_ws
  obtain ⟨hw, hdot⟩ := paramType_word v
  rcases hn with hn | ⟨a, b, ha, hb, rfl⟩
  · obtain ⟨s1, e1, a1⟩ := reads_word n hn _ (stop_cons isStop_sp) s hs
    obtain ⟨s2, e2, a2⟩ := reads_ident _ hw _ (stop_cons isStop_sp) s1 (a1.drop isWs_sp)
    obtain ⟨s3, e3, a3⟩ := reads_typed v hp _ (stop_cons (by decide)) s2 (a2.drop isWs_sp)
    refine ⟨s3, ?_, a3.drop (by decide)⟩
    rw [readTypedKeyValue]
    simp only [P.bind_run, e1, e2, if_neg hdot, e3, P.pure_run]
  · rw [List.append_assoc, List.cons_append] at hs
    have h1 := scan_word' a _ ha (by
      intro d r h
      injection h with h _
      rw [← h, isIdent, Uni.letter_ascii _ (by decide), Uni.digit_ascii _ (by decide)]
      decide) s hs
    have e1 : readStr s = some (a, scan s) := by
      simp only [readStr]
      rw [h1]
      simp only [trimQuote_word a ha]
    set R := ' ' :: (paramType v ++ ' ' :: (showParam v ++ '\n' :: k)) with hR
    have h2 : scan (scan s) = ⟨b ++ R, 0, false, .ch '.', ['.']⟩ := by
      rw [h1]
      cases b with
      | nil => simp [isWord] at hb
      | cons c cs =>
        simp only [isWord, Bool.and_eq_true, List.all_eq_true] at hb
        have hc : c.isDigit = false := by
          cases hd : c.isDigit with
          | false => rfl
          | true =>
            exfalso
            have h := hb.1
            simp only [wordStart, Bool.or_eq_true, beq_iff_eq] at h
            rcases h with h | rfl
            · simp only [Char.isAlpha, Char.isUpper, Char.isLower, Char.isDigit, Bool.or_eq_true, Bool.and_eq_true,
                decide_eq_true_eq, UInt32.le_iff_toNat_le] at h hd
              have hd2 : c.val.toNat ≤ 57 := hd.2
              rcases h with h | h
              · have : 65 ≤ c.val.toNat := h.1
                omega
              · have : 97 ≤ c.val.toNat := h.1
                omega
            · revert hd; decide
        have hl : ('.' == '_' || Uni.letter '.') = false := by rw [Uni.letter_ascii _ (by decide)]; decide
        have ht : token ('.' :: (c :: cs ++ R)) = ⟨.ch '.', ['.'], c :: cs ++ R, 0⟩ := by
          rw [token, if_neg (by rw [hl]; decide), if_neg (by decide), if_neg (by decide), if_neg (by decide),
            if_neg (by simp [startsDigit, hc]), if_neg (by decide)]
        rw [scan_of _ _ (by decide) (by decide) _ _ _ _ (by rw [ht]), ht]
    have e2 : readIdent (scan s) = some (['.'], scan (scan s)) := by
      simp only [readIdent]
      rw [h2]
    have a2 : AtWs (b ++ R) (scan (scan s)) := by rw [h2]; exact At.ws ⟨rfl, rfl, rfl⟩
    obtain ⟨s3, e3, a3⟩ := reads_word b hb _ (stop_cons isStop_sp) _ a2
    obtain ⟨s4, e4, a4⟩ := reads_ident _ hw _ (stop_cons isStop_sp) s3 (a3.drop isWs_sp)
    obtain ⟨s5, e5, a5⟩ := reads_typed v hp _ (stop_cons (by decide)) s4 (a4.drop isWs_sp)
    refine ⟨s5, ?_, a5.drop (by decide)⟩
    rw [readTypedKeyValue]
    simp only [P.bind_run, e1, e2, if_true, e3, e4, e5, P.pure_run]
    simp [readTypedKeyValue.t_dot]

theorem setKey_new {κ α : Type} [DecidableEq κ] (k : κ) (a : α) (l : List (κ × α)) (h : k ∉ l.map Prod.fst) :
    setKey k a l = l ++ [(k, a)] := by
  induction l with
  | nil => rfl
  | cons p l ih =>
    obtain ⟨k', a'⟩ := p
    simp only [List.map_cons, List.mem_cons, not_or] at h
    rw [setKey, if_neg (fun e => h.1 e.symm), ih h.2, List.cons_append]

theorem setKey_all {κ α : Type} [DecidableEq κ] (l m : List (κ × α)) (h : ((m ++ l).map Prod.fst).Nodup) :
    l.foldl (fun m p => setKey p.1 p.2 m) m = m ++ l := by
  induction l generalizing m with
  | nil => simp
  | cons p l ih =>
    have hp : p.1 ∉ m.map Prod.fst := by
      rw [List.map_append, List.map_cons, List.nodup_append] at h
      intro hc
      exact h.2.2 _ hc p.1 (by simp) rfl
    rw [List.foldl_cons, setKey_new _ _ _ hp, ih]
    · simp
    · simpa using h

theorem e_type (x : Ex2 F) (t : Str) (h : Plain t) :
    ObjPiece ex2Attrs (entry tab2 "shadertype".toList (quote t)) x { x with shaderType := t } :=
  objPiece tab2_ws (by decide) rfl ((reads_str t h).map fun t => { x with shaderType := t })

theorem e_name (x : Ex2 F) (t : Str) (h : Plain t) :
    ObjPiece ex2Attrs (entry tab2 "shadername".toList (quote t)) x { x with shaderName := t } :=
  objPiece tab2_ws (by decide) rfl ((reads_str t h).map fun t => { x with shaderName := t })

theorem e_params (x : Ex2 F) (l : List (Str × Param F)) (hl : l.length ≤ maxInt)
    (h : ∀ p ∈ l, ParamName p.1 ∧ ParamOk p.2) (hk : (l.map Prod.fst).Nodup) :
    ObjPiece ex2Attrs (entry tab2 "shaderparam".toList (showNat l.length ++ (" {\n".toList
      ++ (l.flatMap writeParam ++ (tab2 ++ ['}']))))) x { x with shaderParams := l } := by
  have hr := reads_procArray (init := fun e : Ex2 F => { e with shaderParams := [] })
    (elem := fun e : Ex2 F => do
      let kv ← readTypedKeyValue
      return { e with shaderParams := setKey kv.1 kv.2 e.shaderParams })
    writeParam (fun e p => { e with shaderParams := setKey p.1 p.2 e.shaderParams }) l x tab2_ws hl (by
      intro p hp y k s hs
      obtain ⟨s', e', a'⟩ := readParam_write p (h p hp).1 (h p hp).2 k s hs
      exact ⟨s', by simp only [P.bind_run, e', P.pure_run], a'⟩)
  have hfold : ∀ (l : List (Str × Param F)) (y : Ex2 F),
      l.foldl (fun e p => { e with shaderParams := setKey p.1 p.2 e.shaderParams }) y
        = { y with shaderParams := l.foldl (fun m p => setKey p.1 p.2 m) y.shaderParams } := by
    intro l
    induction l with
    | nil => intro y; rfl
    | cons v l ih => intro y; rw [List.foldl_cons, ih, List.foldl_cons]
  rw [hfold] at hr
  simp only [setKey_all l [] (by simpa using hk), List.nil_append] at hr
  exact objPiece tab2_ws (by decide) rfl hr

theorem ex2_piece (e : Ex2 F) (he : Ex2Ok e) : ObjPiece ex2Attrs (ex2Text e) emptyEx2 (normEx2 e) := by
  have h := e_type (F := F) emptyEx2 e.shaderType he.type
  dsimp only [emptyEx2] at h
  replace h := h.trans (e_name (F := F) _ e.shaderName he.name)
  dsimp only at h
  replace h := h.trans (e_params (F := F) _ e.shaderParams he.count he.params he.keys)
  dsimp only at h
  simp only [List.append_assoc] at h
  exact h

theorem readEx2_write (p : Nat × Ex2 F) (hi : p.1 ≤ maxInt) (he : Ex2Ok p.2) (k : Str) (s : St)
    (hs : AtWs (writeEx2 p.1 p.2 ++ k) s) :
    ∃ s', readMaterialEx s = some (((p.1 : Int), normEx2 p.2), s') ∧ AtWs k s' := by
  have htext : writeEx2 p.1 p.2 ++ k = tab1 ++ ("material".toList ++ ' ' :: (showNat p.1 ++ ' ' ::
      (('{' :: '\n' :: (ex2Text p.2 ++ (tab1 ++ ['}']))) ++ '\n' :: k))) := by
    unfold writeEx2
    generalize ex2Text p.2 = w
    rw [show "material ".toList = "material".toList ++ [' '] from by decide,
      show " {\n".toList = [' ', '{', '\n'] from by decide, show "}\n".toList = ['}', '\n'] from by decide]
    simp only [List.append_assoc, List.cons_append, List.nil_append]
  rw [htext] at hs
  have hsc := scan_at_word (hs.dropAll tab1_ws) (by decide) (stop_cons isStop_sp)
  have a1 : AtWs (showNat p.1 ++ ' ' :: (('{' :: '\n' :: (ex2Text p.2 ++ (tab1 ++ ['}']))) ++ '\n' :: k)) (scan s) := by
    rw [hsc]
    exact (At.ws ⟨rfl, rfl, rfl⟩ : AtWs (' ' :: _) _).drop isWs_sp
  obtain ⟨s2, e2, a2⟩ := reads_nat p.1 hi _ (stop_cons isStop_sp) (scan s) a1
  obtain ⟨s3, e3, a3⟩ := reads_procObj (good_ex2Attrs (F := F)) (ex2_piece p.2 he) tab1_ws ('\n' :: k)
    (stop_cons (by decide)) s2 (a2.drop isWs_sp)
  refine ⟨s3, ?_, a3.drop (by decide)⟩
  have e1 : skip s = some ((), scan s) := rfl
  simp only [readMaterialEx, P.bind_run, e1, e2, e3, P.pure_run]

/-! The scene. -/

theorem s_pos (x : Scene F) (v : Vec3 F) (h : FinV v) :
    ObjPiece sceneAttrs (entry tab1 "pos".toList (showVec3 v)) x { x with cameraPos := v } :=
  objPiece tab1_ws (by decide) rfl ((reads_showVec3 h).map fun v => { x with cameraPos := v })

theorem s_lookat (x : Scene F) (v : Vec3 F) (h : FinV v) :
    ObjPiece sceneAttrs (entry tab1 "lookat".toList (showVec3 v)) x { x with cameraLookAt := v } :=
  objPiece tab1_ws (by decide) rfl ((reads_showVec3 h).map fun v => { x with cameraLookAt := v })

theorem s_head (x : Scene F) (y : F) (h : NumLaws.fin y) :
    ObjPiece sceneAttrs (entry tab1 "head".toList (NumText.f4 y)) x
      { x with cameraRot := { x.cameraRot with y := NumLaws.r4 y } } :=
  objPiece tab1_ws (by decide) rfl
    ((reads_num (NumLaws.f4_ok y h)).map fun y => { x with cameraRot := { x.cameraRot with y := y } })

theorem s_pich (x : Scene F) (y : F) (h : NumLaws.fin y) :
    ObjPiece sceneAttrs (entry tab1 "pich".toList (NumText.f4 y)) x
      { x with cameraRot := { x.cameraRot with x := NumLaws.r4 y } } :=
  objPiece tab1_ws (by decide) rfl
    ((reads_num (NumLaws.f4_ok y h)).map fun y => { x with cameraRot := { x.cameraRot with x := y } })

theorem s_bank (x : Scene F) (y : F) (h : NumLaws.fin y) :
    ObjPiece sceneAttrs (entry tab1 "bank".toList (NumText.f4 y)) x
      { x with cameraRot := { x.cameraRot with z := NumLaws.r4 y } } :=
  objPiece tab1_ws (by decide) rfl
    ((reads_num (NumLaws.f4_ok y h)).map fun y => { x with cameraRot := { x.cameraRot with z := y } })

theorem s_ortho (x : Scene F) (b : Bool) :
    ObjPiece sceneAttrs (entry tab1 "ortho".toList (showBool b)) x { x with ortho := b } := by
  have h := (reads_bool b).map fun i => ({ x with ortho := decide (0 < i) } : Scene F)
  have hb : decide (0 < (if b then 1 else 0 : Int)) = b := by cases b <;> decide
  rw [hb] at h
  exact objPiece tab1_ws (by decide) rfl h

theorem s_zoom2 (x : Scene F) (y : F) (h : NumLaws.fin y) :
    ObjPiece sceneAttrs (entry tab1 "zoom2".toList (NumText.f4 y)) x { x with zoom2 := NumLaws.r4 y } :=
  objPiece tab1_ws (by decide) rfl ((reads_num (NumLaws.f4_ok y h)).map fun y => { x with zoom2 := y })

theorem s_amb (x : Scene F) (v : Option (Vec3 F)) (h : ∀ w, v = some w → FinV w) (hx : x.ambientLight = none) :
    ObjPiece sceneAttrs (optText (fun a => entry tab1 "amb".toList (showVec3f a)) v) x
      { x with ambientLight := v.map round3 } := by
  cases v with
  | none =>
    have : ({ x with ambientLight := (none : Option (Vec3 F)).map round3 } : Scene F) = x := by
      rw [Option.map_none, ← hx]
    rw [this]; exact ObjPiece.refl _ _
  | some w =>
    exact objPiece tab1_ws (by decide) rfl
      ((reads_showVec3f (h w rfl)).map fun v => { x with ambientLight := some v })

theorem s_front [FloatOps F] (x : Scene F) (y : F) (h : NumLaws.fin y) (hx : x.frontClip = 0) :
    ObjPiece sceneAttrs (if FloatOps.lt 0 y then entry tab1 "frontclip".toList (NumText.v y) else []) x
      { x with frontClip := if FloatOps.lt 0 y then y else 0 } := by
  refine ObjPiece.ite _ (fun hc => ?_) (fun hc => ?_)
  · rw [if_pos hc]
    exact objPiece tab1_ws (by decide) rfl ((reads_num (NumLaws.v_ok y h)).map fun y => { x with frontClip := y })
  · rw [if_neg hc, ← hx]

theorem s_back [FloatOps F] (x : Scene F) (y : F) (h : NumLaws.fin y) (hx : x.backClip = 0) :
    ObjPiece sceneAttrs (if FloatOps.lt 0 y then entry tab1 "backclip".toList (NumText.v y) else []) x
      { x with backClip := if FloatOps.lt 0 y then y else 0 } := by
  refine ObjPiece.ite _ (fun hc => ?_) (fun hc => ?_)
  · rw [if_pos hc]
    exact objPiece tab1_ws (by decide) rfl ((reads_num (NumLaws.v_ok y h)).map fun y => { x with backClip := y })
  · rw [if_neg hc, ← hx]

theorem scene_piece [FloatOps F] (s : Scene F) (hs : SceneOk s) :
    ObjPiece sceneAttrs (sceneText s) emptyScene (normScene s) := by
  have h := s_pos (F := F) emptyScene s.cameraPos hs.pos
  dsimp only [emptyScene] at h
  replace h := h.trans (s_lookat (F := F) _ s.cameraLookAt hs.lookAt)
  dsimp only at h
  replace h := h.trans (s_head (F := F) _ s.cameraRot.y hs.rot.2.1)
  dsimp only at h
  replace h := h.trans (s_pich (F := F) _ s.cameraRot.x hs.rot.1)
  dsimp only at h
  replace h := h.trans (s_bank (F := F) _ s.cameraRot.z hs.rot.2.2)
  dsimp only at h
  replace h := h.trans (s_ortho (F := F) _ s.ortho)
  dsimp only at h
  replace h := h.trans (s_zoom2 (F := F) _ s.zoom2 hs.zoom2)
  dsimp only at h
  replace h := h.trans (s_amb (F := F) _ s.ambientLight hs.ambient rfl)
  dsimp only at h
  replace h := h.trans (s_front (F := F) _ s.frontClip hs.front rfl)
  dsimp only at h
  replace h := h.trans (s_back (F := F) _ s.backClip hs.back rfl)
  dsimp only at h
  simp only [List.append_assoc] at h
  exact h

/-! The blocks of the file. -/

omit [NumLaws F] in
theorem docLoop_mono (n m : Nat) (d : Document F) (s : St) (r : Document F × St)
    (h : docLoop n d s = some r) (hm : n ≤ m) : docLoop m d s = some r := by
  induction n generalizing m d s with
  | zero => simp [docLoop] at h
  | succ n ih =>
    obtain ⟨m, rfl⟩ : ∃ k, m = k + 1 := ⟨m - 1, by omega⟩
    rw [docLoop] at h ⊢
    split
    · rename_i hc; rw [if_pos hc] at h; exact h
    · rename_i hc
      rw [if_neg hc] at h
      split
      · rename_i hc2; rw [if_pos hc2] at h; exact h
      · rename_i hc2
        rw [if_neg hc2] at h
        cases hb : docBody d s with
        | none => rw [hb] at h; exact absurd h (by simp)
        | some q =>
          rw [hb] at h
          exact ih m q.1 (scan q.2) h (by omega)

/-- The loop over the blocks ends, and its result satisfies `Q`. -/
def DocWp (d : Document F) (s : St) (Q : Document F → St → Prop) : Prop :=
  ∃ n d' s', docLoop n d s = some (d', s') ∧ Q d' s'

/-- The text `w` of the file changes the document `d` to `d'`. -/
def DocPiece (w : Str) (d d' : Document F) : Prop :=
  ∀ (k : Str) (Q : Document F → St → Prop), (∀ s, AtWs k s → DocWp d' (scan s) Q) →
    ∀ s, AtWs (w ++ k) s → DocWp d (scan s) Q

omit [NumLaws F] in
theorem DocPiece.refl (d : Document F) : DocPiece [] d d := fun _ _ hn s hs => hn s hs

omit [NumLaws F] in
theorem DocPiece.trans {w1 w2 : Str} {x y z : Document F} (h1 : DocPiece w1 x y) (h2 : DocPiece w2 y z) :
    DocPiece (w1 ++ w2) x z := by
  intro k Q hn s hs
  rw [List.append_assoc] at hs
  exact h1 (w2 ++ k) Q (fun s' hs' => h2 k Q hn s' hs') s hs

omit [NumLaws F] in
theorem docWp_step {d d' : Document F} {s s' : St} {Q : Document F → St → Prop}
    (h1 : s.tok ≠ .eof) (h2 : s.text ≠ "Eof".toList) (h3 : docBody d s = some (d', s'))
    (h4 : DocWp d' (scan s') Q) : DocWp d s Q := by
  obtain ⟨n, y, t, e, q⟩ := h4
  refine ⟨n + 1, y, t, ?_, q⟩
  rw [docLoop, if_neg h1, if_neg (fun h => h2 h.2), h3]
  exact e

omit [NumLaws F] in
/-- A block of the file that `docBody` handles. -/
theorem docPiece {w : Str} {d d' : Document F}
    (h : ∀ k s, AtWs (w ++ k) s → (scan s).tok ≠ .eof ∧ (scan s).text ≠ "Eof".toList ∧
      ∃ s', docBody d (scan s) = some (d', s') ∧ AtWs k s') : DocPiece w d d' := by
  intro k Q hn s hs
  obtain ⟨h1, h2, s', h3, h4⟩ := h k s hs
  exact docWp_step h1 h2 h3 (hn s' h4)

/-- The keywords. -/
def keyword (w : Str) : Bool :=
  w == "Material".toList || w == "Object".toList || w == "Thumbnail".toList || w == "MaterialEx2".toList
    || w == "Scene".toList || w == "IncludeXml".toList || w == "Eof".toList

omit [NumLaws F] in
theorem docBody_other (d : Document F) (s : St) (h : keyword s.text = false) : docBody d s = some (d, s) := by
  simp only [keyword, Bool.or_eq_false_iff, beq_eq_false_iff_ne] at h
  obtain ⟨⟨⟨⟨⟨⟨h1, h2⟩, h3⟩, h4⟩, h5⟩, h6⟩, h7⟩ := h
  unfold docBody
  rw [if_neg (fun h => h1 h.2), if_neg (fun h => h2 h.2), if_neg (fun h => h3 h.2), if_neg (fun h => h4 h.2),
    if_neg (fun h => h5 h.2), if_neg (fun h => h6 h.2)]

/-- A word that is not a keyword is skipped. -/
theorem d_word (d : Document F) (w : Str) (c : Char) (hw : isWord w = true) (hk : keyword w = false)
    (hc : isWs c = true) (hs : isStop c = true) : DocPiece (w ++ [c]) d d := by
  refine docPiece ?_
  intro k s hs'
  rw [List.append_assoc, List.singleton_append] at hs'
  have hsc := scan_at_word hs' hw (stop_cons hs)
  refine ⟨by rw [hsc]; simp, ?_, ⟨c :: k, 0, false, .ident, w⟩, ?_,
    (At.ws ⟨rfl, rfl, rfl⟩ : AtWs (c :: k) _).drop hc⟩
  · rw [hsc]
    rintro h
    simp only at h
    rw [h] at hk
    exact absurd hk (by decide)
  · rw [hsc]; exact docBody_other d _ hk

/-- The version number is skipped. -/
theorem d_version (d : Document F) : DocPiece "1.1\n".toList d d := by
  refine docPiece ?_
  intro k s hs
  have htext : "1.1\n".toList ++ k = (Lit.mk ['1'] (some ['1']) none).text ++ '\n' :: k := by
    simp [Lit.text, Lit.fracText, Lit.expText]
  rw [htext] at hs
  have hok : (Lit.mk ['1'] (some ['1']) none).Ok :=
    ⟨by simp, by decide, by decide, by intro f hf; injection hf with hf; subst hf; decide,
      by intro b d h; exact absurd h (by simp), by intro b d h; exact absurd h (by simp)⟩
  have hsc := scan_at_lit hs hok (stop_cons (by decide))
  refine ⟨by rw [hsc]; simp [Lit.tok], by rw [hsc]; simp [Lit.text, Lit.fracText],
    ⟨'\n' :: k, 0, false, .float, ['1', '.', '1']⟩, ?_,
    (At.ws ⟨rfl, rfl, rfl⟩ : AtWs ('\n' :: k) _).drop (by decide)⟩
  rw [hsc]
  exact docBody_other d _ (by simp [keyword, Lit.text, Lit.fracText])

theorem header_piece (d : Document F) : DocPiece header d d := by
  have h := (d_word d "Metasequoia".toList ' ' (by decide) (by decide) (by decide) (by decide)).trans
    ((d_word d "Document".toList '\n' (by decide) (by decide) (by decide) (by decide)).trans
    ((d_word d "Format".toList ' ' (by decide) (by decide) (by decide) (by decide)).trans
    ((d_word d "Text".toList ' ' (by decide) (by decide) (by decide) (by decide)).trans
    ((d_word d "Ver".toList ' ' (by decide) (by decide) (by decide) (by decide)).trans
    ((d_version d).trans
    ((d_word d "CodePage".toList ' ' (by decide) (by decide) (by decide) (by decide)).trans
    (d_word d "utf8".toList '\n' (by decide) (by decide) (by decide) (by decide))))))))
  intro k Q hn s hs
  refine h ('\n' :: k) Q (fun s' hs' => hn s' (hs'.drop (by decide))) s ?_
  have htext : ∀ k : Str, header ++ k = "Metasequoia".toList ++ [' '] ++ ("Document".toList ++ ['\n'] ++
      ("Format".toList ++ [' '] ++ ("Text".toList ++ [' '] ++ ("Ver".toList ++ [' '] ++ ("1.1\n".toList ++
      ("CodePage".toList ++ [' '] ++ ("utf8".toList ++ ['\n']))))))) ++ '\n' :: k := by
    intro k
    rw [show header = "Metasequoia".toList ++ [' '] ++ ("Document".toList ++ ['\n'] ++
      ("Format".toList ++ [' '] ++ ("Text".toList ++ [' '] ++ ("Ver".toList ++ [' '] ++ ("1.1\n".toList ++
      ("CodePage".toList ++ [' '] ++ ("utf8".toList ++ ['\n']))))))) ++ ['\n'] from by decide]
    rw [List.append_assoc _ ['\n'] k, List.singleton_append]
  rw [← htext k]
  exact hs

theorem scene_doc [FloatOps F] (d : Document F) (c : Scene F) (hc : SceneOk c) :
    DocPiece (writeScene c) d { d with scene := some (normScene c) } := by
  refine docPiece ?_
  intro k s hs
  have htext : writeScene c ++ k = "Scene".toList ++ ' ' ::
      (('{' :: '\n' :: (sceneText c ++ ([] ++ ['}']))) ++ '\n' :: k) := by
    unfold writeScene
    generalize sceneText c = w
    rw [show "Scene {\n".toList = "Scene".toList ++ [' ', '{', '\n'] from by decide,
      show "}\n".toList = ['}', '\n'] from by decide]
    simp only [List.append_assoc, List.cons_append, List.nil_append]
  rw [htext] at hs
  have hsc := scan_at_word hs (by decide) (stop_cons isStop_sp)
  have a1 : AtWs (('{' :: '\n' :: (sceneText c ++ ([] ++ ['}']))) ++ '\n' :: k) (scan s) := by
    rw [hsc]
    exact (At.ws ⟨rfl, rfl, rfl⟩ : AtWs (' ' :: _) _).drop isWs_sp
  obtain ⟨s3, e3, a3⟩ := reads_procObj (good_sceneAttrs (F := F)) (scene_piece c hc) (ind := []) (by simp)
    ('\n' :: k) (stop_cons (by decide)) _ a1
  have ht : (scan s).tok = .ident := by rw [hsc]
  have hx : (scan s).text = "Scene".toList := by rw [hsc]
  refine ⟨by rw [ht]; simp, by rw [hx]; decide, s3, ?_, a3.drop (by decide)⟩
  unfold docBody
  rw [ht, hx, if_neg (by decide), if_neg (by decide), if_neg (by decide), if_neg (by decide),
    if_pos ⟨rfl, rfl⟩]
  simp only [P.bind_run, e3, P.pure_run]

theorem materials_doc (d : Document F) (l : List (Material F)) (hd : d.materials = []) (hl : l.length ≤ maxInt)
    (h : ∀ m ∈ l, MaterialTextOk m) :
    DocPiece (writeMaterials l) d { d with materials := l.map normMaterial0 } := by
  refine docPiece ?_
  intro k s hs
  have htext : writeMaterials l ++ k = "Material".toList ++ ' ' :: ((showNat l.length ++ (" {\n".toList ++
      (l.flatMap writeMaterial ++ ([] ++ ['}'])))) ++ '\n' :: k) := by
    unfold writeMaterials
    rw [show "Material ".toList = "Material".toList ++ [' '] from by decide,
      show "}\n".toList = ['}', '\n'] from by decide]
    simp only [List.append_assoc, List.cons_append, List.nil_append]
  rw [htext] at hs
  have hsc := scan_at_word hs (by decide) (stop_cons isStop_sp)
  have a1 : AtWs ((showNat l.length ++ (" {\n".toList ++
      (l.flatMap writeMaterial ++ ([] ++ ['}'])))) ++ '\n' :: k) (scan s) := by
    rw [hsc]
    exact (At.ws ⟨rfl, rfl, rfl⟩ : AtWs (' ' :: _) _).drop isWs_sp
  have hr := reads_procArray (init := id)
    (elem := fun (d : Document F) => do
      let m ← readMaterial
      return { d with materials := d.materials ++ [m] })
    writeMaterial (fun d m => { d with materials := d.materials ++ [normMaterial0 m] }) l d (ind := [])
    (by simp) hl (by
      intro m hm y k s hs
      obtain ⟨s', e', a'⟩ := readMaterial_write m (h m hm) k s hs
      exact ⟨s', by simp only [P.bind_run, e', P.pure_run], a'⟩)
  have hfold : ∀ (l : List (Material F)) (y : Document F),
      l.foldl (fun d m => { d with materials := d.materials ++ [normMaterial0 m] }) y
        = { y with materials := y.materials ++ l.map normMaterial0 } := by
    intro l
    induction l with
    | nil => intro y; simp
    | cons v l ih => intro y; rw [List.foldl_cons, ih]; simp
  rw [hfold] at hr
  simp only [id, hd, List.nil_append] at hr
  obtain ⟨s3, e3, a3⟩ := hr ('\n' :: k) (stop_cons (by decide)) _ a1
  have ht : (scan s).tok = .ident := by rw [hsc]
  have hx : (scan s).text = "Material".toList := by rw [hsc]
  refine ⟨by rw [ht]; simp, by rw [hx]; decide, s3, ?_, a3.drop (by decide)⟩
  unfold docBody
  rw [if_pos ⟨ht, hx⟩]
  exact e3

theorem objects_doc [DecidableEq F] (l : List (Object F)) (h : ∀ o ∈ l, ObjectTextOk o) (d : Document F) :
    DocPiece (l.flatMap writeObject) d { d with objects := d.objects ++ l.map normObject } := by
  induction l generalizing d with
  | nil =>
    have : ({ d with objects := d.objects ++ ([] : List (Object F)).map normObject } : Document F) = d := by simp
    rw [this]; exact DocPiece.refl d
  | cons o l ih =>
    have h1 : DocPiece (writeObject o) d { d with objects := d.objects ++ [normObject o] } := by
      refine docPiece ?_
      intro k s hs
      obtain ⟨ht, hx, s', e', a'⟩ := readObject_write o (h o (by simp)) k s hs
      refine ⟨by rw [ht]; simp, by rw [hx]; decide, s', ?_, a'⟩
      unfold docBody
      rw [if_neg (fun hc => absurd (hx.symm.trans hc.2) (by decide)), if_pos ⟨ht, hx⟩]
      simp only [P.bind_run, e', P.pure_run]
    have h2 := h1.trans (ih (fun o ho => h o (by simp [ho])) _)
    simp only [List.append_assoc, List.singleton_append] at h2
    rw [List.flatMap_cons, List.map_cons]
    exact h2

/-! The second block of materials. -/

theorem setEx2_step (done todo : List (Material F)) (m : Material F) (e : Ex2 F) :
    setEx2 (done.length : Int) e (done ++ m :: todo) = done ++ { m with ex2 := some e } :: todo := by
  unfold setEx2
  rw [if_pos ⟨by omega, by simp⟩, Int.toNat_natCast]
  induction done with
  | nil => rfl
  | cons a l ih => simpa using ih

theorem setEx2_all (l done : List (Material F)) :
    (ex2s done.length l).foldl (fun ms p => setEx2 (p.1 : Int) (normEx2 p.2) ms)
        (done ++ l.map normMaterial0) = done ++ l.map normMaterial := by
  induction l generalizing done with
  | nil => simp [ex2s]
  | cons m l ih =>
    have key : ∀ m' : Material F, (ex2s (done.length + 1) l).foldl
        (fun ms p => setEx2 (p.1 : Int) (normEx2 p.2) ms) (done ++ m' :: l.map normMaterial0)
          = done ++ m' :: l.map normMaterial := by
      intro m'
      have := ih (done ++ [m'])
      rw [List.length_append, List.length_singleton] at this
      simpa using this
    rw [List.map_cons, List.map_cons, ex2s]
    cases hm : m.ex2 with
    | none =>
      simp only
      rw [key]
      simp [normMaterial, hm, normMaterial0]
    | some e =>
      simp only
      rw [List.foldl_cons, setEx2_step, key]
      simp [normMaterial, hm]

theorem ex2s_mem (l : List (Material F)) (i : Nat) (p : Nat × Ex2 F) (h : p ∈ ex2s i l) :
    p.1 < i + l.length ∧ ∃ m ∈ l, m.ex2 = some p.2 := by
  induction l generalizing i with
  | nil => simp [ex2s] at h
  | cons m l ih =>
    rw [ex2s] at h
    have hrest : p ∈ ex2s (i + 1) l → p.1 < i + (m :: l).length ∧ ∃ m' ∈ m :: l, m'.ex2 = some p.2 := by
      intro hp
      obtain ⟨h1, m', h2, h3⟩ := ih (i + 1) hp
      exact ⟨by simp; omega, m', by simp [h2], h3⟩
    cases hm : m.ex2 with
    | none => rw [hm] at h; exact hrest h
    | some e =>
      rw [hm] at h
      rcases List.mem_cons.1 h with rfl | h
      · exact ⟨by simp, m, by simp, hm⟩
      · exact hrest h

theorem ex2s_length (l : List (Material F)) (i : Nat) : (ex2s i l).length ≤ l.length := by
  induction l generalizing i with
  | nil => simp [ex2s]
  | cons m l ih =>
    have := ih (i + 1)
    rw [ex2s]
    cases m.ex2 <;> simp <;> omega

theorem ex2_doc (d : Document F) (l : List (Material F)) (hd : d.materials = l.map normMaterial0)
    (hl : l.length ≤ maxInt) (h : ∀ m ∈ l, ∀ e, m.ex2 = some e → Ex2Ok e) :
    DocPiece (writeEx2s (ex2s 0 l)) d { d with materials := l.map normMaterial } := by
  have hall := setEx2_all l []
  rw [List.length_nil, List.nil_append, List.nil_append] at hall
  by_cases hz : 0 < (ex2s 0 l).length
  · refine docPiece ?_
    intro k s hs
    set E := ex2s 0 l with hE
    have htext : writeEx2s E ++ k = "MaterialEx2".toList ++ ' ' :: ((showNat E.length ++ (" {\n".toList ++
        (E.flatMap (fun p => writeEx2 p.1 p.2) ++ ([] ++ ['}'])))) ++ '\n' :: k) := by
      unfold writeEx2s
      rw [if_pos hz, show "MaterialEx2 ".toList = "MaterialEx2".toList ++ [' '] from by decide,
        show "}\n".toList = ['}', '\n'] from by decide]
      simp only [List.append_assoc, List.cons_append, List.nil_append]
    rw [htext] at hs
    have hsc := scan_at_word hs (by decide) (stop_cons isStop_sp)
    have a1 : AtWs ((showNat E.length ++ (" {\n".toList ++
        (E.flatMap (fun p => writeEx2 p.1 p.2) ++ ([] ++ ['}'])))) ++ '\n' :: k) (scan s) := by
      rw [hsc]
      exact (At.ws ⟨rfl, rfl, rfl⟩ : AtWs (' ' :: _) _).drop isWs_sp
    have hr := reads_procArray (init := id)
      (elem := fun (d : Document F) => do
        let r ← readMaterialEx
        return { d with materials := setEx2 r.1 r.2 d.materials })
      (fun p : Nat × Ex2 F => writeEx2 p.1 p.2)
      (fun d p => { d with materials := setEx2 (p.1 : Int) (normEx2 p.2) d.materials }) E d (ind := [])
      (by simp) ((ex2s_length l 0).trans hl) (by
        intro p hp y k s hs
        obtain ⟨h1, m, hm, he⟩ := ex2s_mem l 0 p hp
        obtain ⟨s', e', a'⟩ := readEx2_write p (by omega) (h m hm _ he) k s hs
        exact ⟨s', by simp only [P.bind_run, e', P.pure_run], a'⟩)
    have hfold : ∀ (l : List (Nat × Ex2 F)) (y : Document F),
        l.foldl (fun d p => { d with materials := setEx2 (p.1 : Int) (normEx2 p.2) d.materials }) y
          = { y with materials := l.foldl (fun ms p => setEx2 (p.1 : Int) (normEx2 p.2) ms) y.materials } := by
      intro l
      induction l with
      | nil => intro y; rfl
      | cons v l ih => intro y; rw [List.foldl_cons, ih, List.foldl_cons]
    rw [hfold] at hr
    simp only [id, hd, hall] at hr
    obtain ⟨s3, e3, a3⟩ := hr ('\n' :: k) (stop_cons (by decide)) _ a1
    have ht : (scan s).tok = .ident := by rw [hsc]
    have hx : (scan s).text = "MaterialEx2".toList := by rw [hsc]
    refine ⟨by rw [ht]; simp, by rw [hx]; decide, s3, ?_, a3.drop (by decide)⟩
    unfold docBody
    have hne : ∀ w : Str, w ≠ "MaterialEx2".toList → ¬ ((scan s).tok = .ident ∧ (scan s).text = w) :=
      fun w hw hc => hw (hc.2.symm.trans hx)
    rw [if_neg (hne _ (by decide)), if_neg (hne _ (by decide)), if_neg (hne _ (by decide)), if_pos ⟨ht, hx⟩]
    exact e3
  · have hnil : ex2s 0 l = [] := List.eq_nil_of_length_eq_zero (by omega)
    rw [hnil] at hall
    simp only [List.foldl_nil] at hall
    rw [writeEx2s, if_neg hz, ← hall, ← hd]
    exact DocPiece.refl d

/-- The end of the file. -/
theorem eof_doc (d : Document F) (s : St) (hs : AtWs "Eof\n".toList s) :
    DocWp d (scan s) fun d' s' => d' = d ∧ s'.errs = 0 := by
  have hs' : AtWs ("Eof".toList ++ ['\n']) s := hs
  have hsc := scan_at_word hs' (by decide) (stop_cons (by decide))
  refine ⟨1, d, scan s, ?_, rfl, by rw [hsc]⟩
  rw [docLoop, if_neg (by rw [hsc]; simp), if_pos (by rw [hsc]; exact ⟨rfl, rfl⟩)]

/-- The whole file. -/
theorem doc_piece [DecidableEq F] [FloatOps F] (d : Document F) (hd : DocOk d) :
    DocPiece (header ++ (optText writeScene d.scene ++ (writeMaterials d.materials
      ++ (writeEx2s (ex2s 0 d.materials) ++ d.objects.flatMap writeObject))))
      (⟨none, [], [], none, none, none⟩ : Document F) (normDoc d) := by
  have h := header_piece (⟨none, [], [], none, none, none⟩ : Document F)
  have hscene : DocPiece (optText writeScene d.scene) (⟨none, [], [], none, none, none⟩ : Document F)
      (⟨d.scene.map normScene, [], [], none, none, none⟩ : Document F) := by
    cases hc : d.scene with
    | none => exact DocPiece.refl _
    | some c => exact scene_doc _ c (hd.scene c hc)
  replace h := h.trans hscene
  replace h := h.trans (materials_doc (F := F) _ d.materials rfl hd.count hd.material)
  dsimp only at h
  replace h := h.trans (ex2_doc (F := F) _ d.materials rfl hd.count hd.ex2)
  dsimp only at h
  replace h := h.trans (objects_doc (F := F) d.objects hd.object _)
  dsimp only at h
  simp only [List.append_assoc, List.nil_append] at h
  exact h

end

end Verif.Mqo
