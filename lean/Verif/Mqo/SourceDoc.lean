import Verif.Mqo.SourceEx

/-! Objects, scenes and whole texts of `Verif.Mqo.Source`: they are read as what they say. -/

namespace Verif.Mqo

open Verif.Geom Verif.Text

variable [Uni]

section
variable {F : Type} [Zero F] [One F] [Neg F] [Mul F] [NumText F]

/-! ## Objects -/

theorem readUIDs_src {st : Style} (hst : st.Ok) (l : List Nat) (hl : ∀ i ∈ l, i ≤ maxInt) (i : Nat)
    (m : List (Int × Int)) (k : Str) (s : St) (hs : AtWs (l.flatMap (fun n => st.tab ++ (showNat n ++ st.nl)) ++ k) s) :
    ∃ s', readUIDs l.length i m s = some (idsOf i l m, s') ∧ AtWs k s' := by
  induction l generalizing i m s with
  | nil => exact ⟨s, rfl, hs⟩
  | cons n l ih =>
    rw [List.flatMap_cons, List.append_assoc, List.append_assoc, List.append_assoc] at hs
    obtain ⟨s1, e1, a1⟩ := reads_nat n (hl n (by simp)) _ (hst.nl_stop _) s (hs.dropAll hst.tab_ws)
    obtain ⟨s2, e2, a2⟩ := ih (fun j hj => hl j (by simp [hj])) (i + 1) (setKey (n : Int) (i : Int) m) s1
      (a1.dropAll hst.nl_ws)
    refine ⟨s2, ?_, a2⟩
    rw [List.length_cons, readUIDs, P.bind_run, e1]
    exact e2

omit [Zero F] [One F] [Neg F] [Mul F] [NumText F] in
theorem vertexEntry_piece {st : Style} (hst : st.Ok) (e : VertexEntry) (o : Object F) (he : e.Ok o.vertexes.length) :
    ObjPiece vertexAttrs (e.text st) o (e.set o) := by
  cases e with
  | uid l =>
    obtain ⟨h1, h2⟩ := he
    have htext : VertexEntry.text st (.uid l) = st.entry st.tab "uid".toList
        ('{' :: (st.nl ++ (l.flatMap (fun n => st.tab ++ (showNat n ++ st.nl)) ++ (st.tab ++ ['}'])))) := by
      rw [VertexEntry.text, Style.entry, show "uid {".toList = "uid".toList ++ [' ', '{'] from by decide]
      simp only [List.append_assoc, List.cons_append, List.nil_append]
    rw [htext]
    refine objPiece_entry hst hst.tab_ws (by decide) rfl ?_
    intro k hk s hs
    set U := l.flatMap (fun n => st.tab ++ (showNat n ++ st.nl)) with hU
    have ht : ('{' :: (st.nl ++ (U ++ (st.tab ++ ['}'])))) ++ k = '{' :: (st.nl ++ (U ++ (st.tab ++ '}' :: k))) := by simp
    rw [ht] at hs
    have e1 := skip_at_punct hs (by decide)
    have a1 : AtWs (U ++ (st.tab ++ '}' :: k))
        (⟨st.nl ++ (U ++ (st.tab ++ '}' :: k)), 0, false, .ch '{', ['{']⟩ : St) :=
      (At.ws ⟨rfl, rfl, rfl⟩ : AtWs (st.nl ++ (U ++ (st.tab ++ '}' :: k))) _).dropAll hst.nl_ws
    obtain ⟨s2, e2, a2⟩ := readUIDs_src hst l h2 0 o.vertexByUID _ _ a1
    have e3 := skip_at_punct (a2.dropAll hst.tab_ws) (by decide)
    refine ⟨⟨k, 0, false, .ch '}', ['}']⟩, ?_, At.ws ⟨rfl, rfl, rfl⟩⟩
    simp only [P.bind_run, e1, ← h1, e2, e3, P.pure_run, VertexEntry.set]
  | other u => exact objPiece_unknown vertexAttrs_keys hst hst.tab_ws u he o

omit [Uni] [Zero F] [One F] [Neg F] [Mul F] [NumText F] in
theorem vertexEntry_vertexes (e : VertexEntry) (o : Object F) : (e.set o).vertexes = o.vertexes := by
  cases e <;> rfl

omit [Zero F] [One F] [Neg F] [Mul F] [NumText F] in
theorem vertexEntries_piece {st : Style} (hst : st.Ok) (l : List VertexEntry) (o : Object F)
    (hl : ∀ e ∈ l, e.Ok o.vertexes.length) :
    ObjPiece vertexAttrs (l.flatMap (VertexEntry.text st)) o (l.foldl VertexEntry.set o) := by
  induction l generalizing o with
  | nil => exact ObjPiece.refl _ o
  | cons e l ih =>
    rw [List.flatMap_cons, List.foldl_cons]
    refine (vertexEntry_piece hst e o (hl e (by simp))).trans (ih _ fun d hd => ?_)
    rw [vertexEntry_vertexes]
    exact hl d (by simp [hd])

omit [Uni] [Zero F] [One F] [Neg F] [Mul F] [NumText F] in
theorem fold_vertexes {β : Type} (g : β → Vec3 F) (l : List β) (y : Object F) :
    l.foldl (fun o v => { o with vertexes := o.vertexes ++ [g v] }) y = { y with vertexes := y.vertexes ++ l.map g } := by
  induction l generalizing y with
  | nil => simp
  | cons v l ih => rw [List.foldl_cons, ih]; simp

omit [Uni] [Zero F] [One F] [Neg F] [Mul F] [NumText F] in
theorem fold_faces {β : Type} (g : β → Face F) (l : List β) (y : Object F) :
    l.foldl (fun o v => { o with faces := o.faces ++ [g v] }) y = { y with faces := y.faces ++ l.map g } := by
  induction l generalizing y with
  | nil => simp
  | cons v l ih => rw [List.foldl_cons, ih]; simp

theorem objEntry_piece {st : Style} (hst : st.Ok) (e : ObjEntry) (o : Object F) (he : e.Ok o) :
    ObjPiece objectAttrs (e.text st) o (e.set o) := by
  have hpos : ∀ n : Nat, decide (0 < (n : Int)) = decide (0 < n) := by intro n; congr 1; simp
  cases e with
  | uid n => exact objPiece_entry hst hst.tab_ws (by decide) rfl ((reads_nat n he).map
      fun c => ({ o with uid := c } : Object F))
  | depth n => exact objPiece_entry hst hst.tab_ws (by decide) rfl ((reads_nat n he).map
      fun c => ({ o with depth := c } : Object F))
  | folding n =>
    have h := (reads_nat n he).map fun c => ({ o with folding := decide (0 < c) } : Object F)
    rw [hpos] at h
    exact objPiece_entry hst hst.tab_ws (by decide) rfl h
  | visible n =>
    have h := (reads_nat n he).map fun c => ({ o with visible := decide (0 < c) } : Object F)
    rw [hpos] at h
    exact objPiece_entry hst hst.tab_ws (by decide) rfl h
  | shading n => exact objPiece_entry hst hst.tab_ws (by decide) rfl ((reads_nat n he).map
      fun c => ({ o with shading := c } : Object F))
  | facet x => exact objPiece_entry hst hst.tab_ws (by decide) rfl ((Num.Ok.reads he).map
      fun c => ({ o with facet := c } : Object F))
  | patch n => exact objPiece_entry hst hst.tab_ws (by decide) rfl ((reads_nat n he).map
      fun c => ({ o with patch := c } : Object F))
  | segment n => exact objPiece_entry hst hst.tab_ws (by decide) rfl ((reads_nat n he).map
      fun c => ({ o with patchSegment := c } : Object F))
  | mirror n => exact objPiece_entry hst hst.tab_ws (by decide) rfl ((reads_nat n he).map
      fun c => ({ o with mirror := c } : Object F))
  | mirrorDis x => exact objPiece_entry hst hst.tab_ws (by decide) rfl ((Num.Ok.reads he).map
      fun c => ({ o with mirrorDis := c } : Object F))
  | scale v => exact objPiece_entry hst hst.tab_ws (by decide) rfl ((Num3.Ok.reads he).map
      fun c => ({ o with scale := some c } : Object F))
  | rotation v => exact objPiece_entry hst hst.tab_ws (by decide) rfl ((Num3.Ok.reads he).map
      fun c => ({ o with rotation := some ⟨c.y, c.x, c.z⟩ } : Object F))
  | translation v => exact objPiece_entry hst hst.tab_ws (by decide) rfl ((Num3.Ok.reads he).map
      fun c => ({ o with translation := some c } : Object F))
  | color v => exact objPiece_entry hst hst.tab_ws (by decide) rfl ((Num3.Ok.reads he).map
      fun c => ({ o with color := some c } : Object F))
  | vertex l =>
    obtain ⟨h1, h2⟩ := he
    have hr := reads_array hst (init := fun o : Object F => { o with vertexes := [] })
      (elem := fun o : Object F => do
        let v ← readVec3
        return { o with vertexes := o.vertexes ++ [v] })
      (fun v : Num3 => st.tab ++ (v.text ++ st.nl)) (fun o v => { o with vertexes := o.vertexes ++ [v.value] }) l o
      hst.tab_ws h1 (by
        intro v hv y k s hs
        rw [List.append_assoc, List.append_assoc] at hs
        obtain ⟨s', e', a'⟩ := Num3.Ok.reads (F := F) (h2 v hv) _ (hst.nl_stop k) s (hs.dropAll hst.tab_ws)
        exact ⟨s', by simp only [P.bind_run, e', P.pure_run], a'.dropAll hst.nl_ws⟩)
    rw [fold_vertexes] at hr
    exact objPiece_entry hst hst.tab_ws (by decide) rfl hr
  | face l =>
    obtain ⟨h1, h2⟩ := he
    have hr := reads_array hst (init := fun o : Object F => { o with faces := [] })
      (elem := fun o : Object F => do
        let f ← readFace
        return { o with faces := o.faces ++ [f] })
      (FaceSrc.text st) (fun o f => { o with faces := o.faces ++ [f.meaning] }) l o
      hst.tab_ws h1 (by
        intro f hf y k s hs
        obtain ⟨s', e', a'⟩ := readFace_src (F := F) hst f (h2 f hf) k s hs
        exact ⟨s', by simp only [P.bind_run, e', P.pure_run], a'⟩)
    rw [fold_faces] at hr
    exact objPiece_entry hst hst.tab_ws (by decide) rfl hr
  | vertexattr l =>
    exact objPiece_entry hst hst.tab_ws (by decide) rfl
      (reads_obj good_vertexAttrs hst.nl_ws (vertexEntries_piece hst l o he) hst.tab_ws)
  | other u => exact objPiece_unknown objectAttrs_keys hst hst.tab_ws u he o

theorem objEntries_piece {st : Style} (hst : st.Ok) (l : List ObjEntry) (o : Object F) (hl : EntriesOk o l) :
    ObjPiece objectAttrs (l.flatMap (ObjEntry.text st)) o (l.foldl ObjEntry.set o) := by
  induction l generalizing o with
  | nil => exact ObjPiece.refl _ o
  | cons e l ih =>
    rw [List.flatMap_cons, List.foldl_cons]
    exact (objEntry_piece hst e o hl.1).trans (ih _ hl.2)

/-! ## Scenes -/

theorem sceneEntry_piece {st : Style} (hst : st.Ok) (e : SceneEntry) (he : e.Ok) (c : Scene F) :
    ObjPiece sceneAttrs (e.text st) c (e.set c) := by
  cases e with
  | pos v => exact objPiece_entry hst hst.tab_ws (by decide) rfl ((Num3.Ok.reads he).map
      fun v => ({ c with cameraPos := v } : Scene F))
  | lookat v => exact objPiece_entry hst hst.tab_ws (by decide) rfl ((Num3.Ok.reads he).map
      fun v => ({ c with cameraLookAt := v } : Scene F))
  | head x => exact objPiece_entry hst hst.tab_ws (by decide) rfl ((Num.Ok.reads he).map
      fun v => ({ c with cameraRot := { c.cameraRot with y := v } } : Scene F))
  | pich x => exact objPiece_entry hst hst.tab_ws (by decide) rfl ((Num.Ok.reads he).map
      fun v => ({ c with cameraRot := { c.cameraRot with x := v } } : Scene F))
  | bank x => exact objPiece_entry hst hst.tab_ws (by decide) rfl ((Num.Ok.reads he).map
      fun v => ({ c with cameraRot := { c.cameraRot with z := v } } : Scene F))
  | ortho n =>
    have h := (reads_nat n he).map fun i => ({ c with ortho := decide (0 < i) } : Scene F)
    have e : decide (0 < (n : Int)) = decide (0 < n) := by congr 1; simp
    rw [e] at h
    exact objPiece_entry hst hst.tab_ws (by decide) rfl h
  | zoom2 x => exact objPiece_entry hst hst.tab_ws (by decide) rfl ((Num.Ok.reads he).map
      fun v => ({ c with zoom2 := v } : Scene F))
  | amb v => exact objPiece_entry hst hst.tab_ws (by decide) rfl ((Num3.Ok.reads he).map
      fun v => ({ c with ambientLight := some v } : Scene F))
  | frontclip x => exact objPiece_entry hst hst.tab_ws (by decide) rfl ((Num.Ok.reads he).map
      fun v => ({ c with frontClip := v } : Scene F))
  | backclip x => exact objPiece_entry hst hst.tab_ws (by decide) rfl ((Num.Ok.reads he).map
      fun v => ({ c with backClip := v } : Scene F))
  | other u => exact objPiece_unknown sceneAttrs_keys hst hst.tab_ws u he c

/-! ## Documents -/

omit [Zero F] [One F] [Neg F] [Mul F] [NumText F] in
theorem keyword_of {x : Str} (h : x ∉ chunkKeys) : keyword x = false := by
  have hm : ∀ k ∈ chunkKeys, x ≠ k := fun k hk e => h (e ▸ hk)
  simp only [keyword, Bool.or_eq_false_iff, beq_eq_false_iff_ne]
  refine ⟨⟨⟨⟨⟨⟨?_, ?_⟩, ?_⟩, ?_⟩, ?_⟩, ?_⟩, ?_⟩ <;> exact hm _ (by decide)

theorem docWp_other {d : Document F} {s : St} {Q : Document F → St → Prop} (h1 : s.tok ≠ .eof)
    (h2 : s.text ∉ chunkKeys) (h3 : DocWp d (scan s) Q) : DocWp d s Q :=
  docWp_step h1 (fun e => h2 (by rw [e]; decide)) (docBody_other d s (keyword_of h2)) h3

theorem inner_doc (l : List (Inner × Str)) (hl : InnerOk l) (hn : ∀ p ∈ l, ∀ i, p.1 = .item i → i.Not chunkKeys)
    (d : Document F) : DocPiece (innerText l) d d := by
  induction l with
  | nil => exact DocPiece.refl d
  | cons p l ih =>
    obtain ⟨t, w⟩ := p
    have ih := ih (fun q hq => hl q (by simp [hq])) fun q hq => hn q (by simp [hq])
    obtain ⟨h1, h2, h3⟩ := hl (t, w) (by simp)
    have hw : ∀ c ∈ w, isWs c = true := by
      intro c hc
      rcases h3 c hc with rfl | rfl | rfl | rfl <;> decide
    intro k Q hk s hs
    have htext : innerText ((t, w) :: l) ++ k = t.text ++ (w ++ (innerText l ++ k)) := by simp [innerText]
    rw [htext] at hs
    have hnext : ∀ s', AtWs (w ++ (innerText l ++ k)) s' → DocWp d (scan s') Q :=
      fun s' hs' => ih k Q hk s' (hs'.dropAll hw)
    have hp : ∀ c : Char, isPunct c = true → [c] ∉ chunkKeys → t.text = [c] → DocWp d (scan s) Q := by
      intro c hc hk ht
      rw [ht] at hs
      have hsc := scan_at_punct hs hc
      rw [hsc]
      refine docWp_other (by simp) hk (hnext _ (At.ws ⟨rfl, rfl, rfl⟩))
    cases t with
    | opening => exact hp '{' (by decide) (by decide) rfl
    | closing => exact hp '}' (by decide) (by decide) rfl
    | item i =>
      refine item_run (m := false) (fun s => DocWp d s Q) i h1 _ (ws_stop h2 h3 _).1 ?_ s hs hnext
      intro s1 g1 g2 _ g3
      refine docWp_other g1 ?_ g3
      intro hm
      have hword : isWord s1.text = true := (show ∀ w ∈ chunkKeys, isWord w = true by decide) _ hm
      have := hn (.item i, w) (by simp) i rfl
      rw [g2.2.2.2 hword] at this
      exact this hm

theorem scene_chunk {st : Style} (hst : st.Ok) (l : List SceneEntry) (hl : ∀ e ∈ l, e.Ok) (d : Document F) :
    DocPiece (Chunk.text st (.scene l)) d (Chunk.add d (.scene l)) := by
  refine docPiece ?_
  intro k s hs
  have htext : Chunk.text st (.scene l) ++ k = "Scene".toList ++ ' ' ::
      (('{' :: (st.nl ++ (l.flatMap (SceneEntry.text st) ++ ([] ++ ['}'])))) ++ (st.nl ++ k)) := by
    have e : "Scene {".toList = "Scene".toList ++ [' ', '{'] := by decide
    unfold Chunk.text
    rewrite [e]
    simp only [List.append_assoc, List.cons_append, List.nil_append]
  rw [htext] at hs
  have hsc := scan_at_word hs (by decide) (stop_cons isStop_sp)
  have a1 : AtWs (('{' :: (st.nl ++ (l.flatMap (SceneEntry.text st) ++ ([] ++ ['}'])))) ++ (st.nl ++ k)) (scan s) := by
    rw [hsc]
    exact (At.ws ⟨rfl, rfl, rfl⟩ : AtWs (' ' :: _) _).drop isWs_sp
  obtain ⟨s3, e3, a3⟩ := reads_obj (good_sceneAttrs (F := F)) hst.nl_ws
    (objs_piece (SceneEntry.text st) SceneEntry.set l (fun e he c => sceneEntry_piece hst e (hl e he) c) emptyScene)
    (ind := []) (by simp) (st.nl ++ k) (hst.nl_stop k) _ a1
  have ht : (scan s).tok = .ident := by rw [hsc]
  have hx : (scan s).text = "Scene".toList := by rw [hsc]
  refine ⟨by rw [ht]; simp, by rw [hx]; decide, s3, ?_, a3.dropAll hst.nl_ws⟩
  unfold docBody
  rw [ht, hx, if_neg (by decide), if_neg (by decide), if_neg (by decide), if_neg (by decide), if_pos ⟨rfl, rfl⟩]
  simp only [P.bind_run, e3, P.pure_run]
  rfl

theorem materials_chunk {st : Style} (hst : st.Ok) (l : List MatSrc) (hl : l.length ≤ maxInt) (h : ∀ m ∈ l, m.Ok)
    (d : Document F) : DocPiece (Chunk.text st (.materials l)) d (Chunk.add d (.materials l)) := by
  refine docPiece ?_
  intro k s hs
  have htext : Chunk.text st (.materials l) ++ k = "Material".toList ++ ' ' ::
      (st.array [] (MatSrc.text st) l ++ (st.nl ++ k)) := by
    have e : "Material ".toList = "Material".toList ++ [' '] := by decide
    unfold Chunk.text
    rewrite [e]
    simp only [List.append_assoc, List.cons_append, List.nil_append]
  rw [htext] at hs
  have hsc := scan_at_word hs (by decide) (stop_cons isStop_sp)
  have a1 : AtWs (st.array [] (MatSrc.text st) l ++ (st.nl ++ k)) (scan s) := by
    rw [hsc]
    exact (At.ws ⟨rfl, rfl, rfl⟩ : AtWs (' ' :: _) _).drop isWs_sp
  have hr := reads_array hst (init := id)
    (elem := fun (d : Document F) => do
      let m ← readMaterial
      return { d with materials := d.materials ++ [m] })
    (MatSrc.text st) (fun d m => { d with materials := d.materials ++ [m.meaning] }) l d (ind := [])
    (by simp) hl (by
      intro m hm y k s hs
      obtain ⟨s', e', a'⟩ := readMaterial_src (F := F) hst m (h m hm) k s hs
      exact ⟨s', by simp only [P.bind_run, e', P.pure_run], a'⟩)
  have hfold : ∀ (l : List MatSrc) (y : Document F),
      l.foldl (fun d m => { d with materials := d.materials ++ [m.meaning] }) y
        = { y with materials := y.materials ++ l.map MatSrc.meaning } := by
    intro l
    induction l with
    | nil => intro y; simp
    | cons v l ih => intro y; rw [List.foldl_cons, ih]; simp
  rw [hfold] at hr
  obtain ⟨s3, e3, a3⟩ := hr (st.nl ++ k) (hst.nl_stop k) _ a1
  have ht : (scan s).tok = .ident := by rw [hsc]
  have hx : (scan s).text = "Material".toList := by rw [hsc]
  refine ⟨by rw [ht]; simp, by rw [hx]; decide, s3, ?_, a3.dropAll hst.nl_ws⟩
  unfold docBody
  rw [if_pos ⟨ht, hx⟩]
  exact e3

theorem object_chunk {st : Style} (hst : st.Ok) (o : ObjSrc) (ho : o.Ok (F := F)) (d : Document F) :
    DocPiece (Chunk.text st (.object o)) d (Chunk.add d (.object o)) := by
  refine docPiece ?_
  intro k s hs
  set B := '{' :: (st.nl ++ (o.entries.flatMap (ObjEntry.text st) ++ ([] ++ ['}']))) with hB
  have htext : Chunk.text st (.object o) ++ k = "Object".toList ++ ' ' ::
      (quote o.name ++ ' ' :: (B ++ (st.nl ++ k))) := by
    have e : "Object ".toList = "Object".toList ++ [' '] := by decide
    have e' : " {".toList = [' ', '{'] := by decide
    rw [hB]
    unfold Chunk.text
    rewrite [e, e']
    simp only [List.append_assoc, List.cons_append, List.nil_append]
  rw [htext] at hs
  have hsc := scan_at_word hs (by decide) (stop_cons isStop_sp)
  have a1 : AtWs (quote o.name ++ ' ' :: (B ++ (st.nl ++ k))) (scan s) := by
    rw [hsc]
    exact (At.ws ⟨rfl, rfl, rfl⟩ : AtWs (' ' :: _) _).drop isWs_sp
  obtain ⟨s2, e2, a2⟩ := reads_str o.name ho.name _ (stop_cons isStop_sp) _ a1
  obtain ⟨s3, e3, a3⟩ := reads_obj (good_objectAttrs (F := F)) hst.nl_ws
    (objEntries_piece hst o.entries _ ho.entries) (ind := []) (by simp) (st.nl ++ k) (hst.nl_stop k) _ (a2.drop isWs_sp)
  have ht : (scan s).tok = .ident := by rw [hsc]
  have hx : (scan s).text = "Object".toList := by rw [hsc]
  refine ⟨by rw [ht]; simp, by rw [hx]; decide, s3, ?_, a3.dropAll hst.nl_ws⟩
  unfold docBody
  rw [ht, hx, if_neg (by decide), if_pos ⟨rfl, rfl⟩]
  simp only [readObject, P.bind_run, e2, e3, P.pure_run]
  rfl

theorem ex_chunk {st : Style} (hst : st.Ok) (l : List ExSrc) (hl : l.length ≤ maxInt) (h : ∀ e ∈ l, e.Ok)
    (d : Document F) : DocPiece (Chunk.text st (.ex l)) d (Chunk.add d (.ex l)) := by
  refine docPiece ?_
  intro k s hs
  have htext : Chunk.text st (.ex l) ++ k = "MaterialEx2".toList ++ ' ' ::
      (st.array [] (ExSrc.text st) l ++ (st.nl ++ k)) := by
    have e : "MaterialEx2 ".toList = "MaterialEx2".toList ++ [' '] := by decide
    unfold Chunk.text
    rewrite [e]
    simp only [List.append_assoc, List.cons_append, List.nil_append]
  rw [htext] at hs
  have hsc := scan_at_word hs (by decide) (stop_cons isStop_sp)
  have a1 : AtWs (st.array [] (ExSrc.text st) l ++ (st.nl ++ k)) (scan s) := by
    rw [hsc]
    exact (At.ws ⟨rfl, rfl, rfl⟩ : AtWs (' ' :: _) _).drop isWs_sp
  have hr := reads_array hst (init := id)
    (elem := fun (d : Document F) => do
      let r ← readMaterialEx
      return { d with materials := setEx2 r.1 r.2 d.materials })
    (ExSrc.text st) (fun d e => { d with materials := e.put d.materials }) l d (ind := [])
    (by simp) hl (by
      intro e he y k s hs
      obtain ⟨s', e', a'⟩ := readMaterialEx_src (F := F) hst e (h e he) k s hs
      refine ⟨s', ?_, a'⟩
      simp only [P.bind_run, e', P.pure_run, setEx2_put])
  have hfold : ∀ (l : List ExSrc) (y : Document F),
      l.foldl (fun d e => { d with materials := ExSrc.put d.materials e }) y
        = { y with materials := l.foldl ExSrc.put y.materials } := by
    intro l
    induction l with
    | nil => intro y; rfl
    | cons v l ih => intro y; rw [List.foldl_cons, ih]; rfl
  rw [hfold] at hr
  obtain ⟨s3, e3, a3⟩ := hr (st.nl ++ k) (hst.nl_stop k) _ a1
  have ht : (scan s).tok = .ident := by rw [hsc]
  have hx : (scan s).text = "MaterialEx2".toList := by rw [hsc]
  refine ⟨by rw [ht]; simp, by rw [hx]; decide, s3, ?_, a3.dropAll hst.nl_ws⟩
  unfold docBody
  rw [ht, hx, if_neg (by decide), if_neg (by decide), if_neg (by decide), if_pos ⟨rfl, rfl⟩]
  exact e3

theorem xml_chunk {st : Style} (hst : st.Ok) (file : Str) (h : Plain file) (d : Document F) :
    DocPiece (Chunk.text st (.xml file)) d d := by
  refine docPiece ?_
  intro k s hs
  have htext : Chunk.text st (.xml file) ++ k = "IncludeXml".toList ++ ' ' :: (quote file ++ (st.nl ++ k)) := by
    have e : "IncludeXml ".toList = "IncludeXml".toList ++ [' '] := by decide
    unfold Chunk.text
    rewrite [e]
    simp only [List.append_assoc, List.cons_append, List.nil_append]
  rw [htext] at hs
  have hsc := scan_at_word hs (by decide) (stop_cons isStop_sp)
  have a1 : AtWs (quote file ++ (st.nl ++ k)) (scan s) := by
    rw [hsc]
    exact (At.ws ⟨rfl, rfl, rfl⟩ : AtWs (' ' :: _) _).drop isWs_sp
  obtain ⟨s2, e2, a2⟩ := reads_str file h _ (hst.nl_stop k) _ a1
  have ht : (scan s).tok = .ident := by rw [hsc]
  have hx : (scan s).text = "IncludeXml".toList := by rw [hsc]
  refine ⟨by rw [ht]; simp, by rw [hx]; decide, s2, ?_, a2.dropAll hst.nl_ws⟩
  unfold docBody
  rw [ht, hx, if_neg (by decide), if_neg (by decide), if_neg (by decide), if_neg (by decide), if_neg (by decide),
    if_pos ⟨rfl, rfl⟩]
  simp only [P.bind_run, e2, P.pure_run]

theorem thumb_chunk {st : Style} (hst : st.Ok) (t : Thumb) (h : t.Ok) (d : Document F) :
    DocPiece (Chunk.text st (.thumb t)) d d := by
  refine docPiece ?_
  intro k s hs
  have htext : Chunk.text st (.thumb t) ++ k = "Thumbnail".toList ++ ' ' :: (showNat t.width ++ ' ' ::
      (showNat t.height ++ ' ' :: (showNat t.depth ++ ' ' :: (t.format ++ ' ' :: (t.coding ++ ' ' :: ('{' ::
        ((st.nl ++ t.body) ++ '}' :: (st.nl ++ k)))))))) := by
    have e : "Thumbnail ".toList = "Thumbnail".toList ++ [' '] := by decide
    have e' : " {".toList = [' ', '{'] := by decide
    unfold Chunk.text Thumb.text
    rewrite [e, e']
    simp only [List.append_assoc, List.cons_append, List.nil_append]
  rw [htext] at hs
  have hsc := scan_at_word hs (by decide) (stop_cons isStop_sp)
  have ht : (scan s).tok = .ident := by rw [hsc]
  have hx : (scan s).text = "Thumbnail".toList := by rw [hsc]
  have sk : ∀ (s : St), skip s = some ((), scan s) := fun _ => rfl
  have num : ∀ (n : Nat) (r : Str) (s : St), AtWs (showNat n ++ ' ' :: r) s → AtWs r (scan s) := by
    intro n r s hs
    rw [scan_at_nat hs (stop_cons isStop_sp)]
    exact (At.ws ⟨rfl, rfl, rfl⟩ : AtWs (' ' :: r) _).drop isWs_sp
  have word : ∀ (w r : Str) (s : St), isWord w = true → AtWs (w ++ ' ' :: r) s → AtWs r (scan s) := by
    intro w r s hw hs
    rw [scan_at_word hs hw (stop_cons isStop_sp)]
    exact (At.ws ⟨rfl, rfl, rfl⟩ : AtWs (' ' :: r) _).drop isWs_sp
  have b0 := word _ _ _ (by decide) hs
  have b1 := num _ _ _ b0
  have b2 := num _ _ _ b1
  have b3 := num _ _ _ b2
  have b4 := word _ _ _ h.format b3
  have b5 := word _ _ _ h.coding b4
  have b6 := scan_at_punct b5 (by decide)
  have b7 := skipBlock_thumb (st.nl ++ t.body) (by
    intro c hc
    rcases List.mem_append.1 hc with hc | hc
    · right
      rcases hst.nl with e | e <;> rw [e] at hc <;> simp at hc
      · simp [hc]
      · rcases hc with rfl | rfl <;> simp
    · exact h.body c hc) (st.nl ++ k) _ (show At _ (scan (scan (scan (scan (scan (scan (scan s))))))) by
      rw [b6]; exact ⟨rfl, rfl, rfl⟩)
  refine ⟨by rw [ht]; simp, by rw [hx]; decide, ⟨st.nl ++ k, 0, false, .ch '}', ['}']⟩, ?_,
    (At.ws ⟨rfl, rfl, rfl⟩ : AtWs (st.nl ++ k) _).dropAll hst.nl_ws⟩
  unfold docBody
  rw [ht, hx, if_neg (by decide), if_neg (by decide), if_pos ⟨rfl, rfl⟩]
  simp only [skipN, P.bind_run, P.pure_run, sk, b7]

theorem chunk_piece {st : Style} (hst : st.Ok) (c : Chunk) (hc : c.Ok F) (d : Document F) :
    DocPiece (c.text st) d (c.add d) := by
  cases c with
  | scene l => exact scene_chunk hst l hc d
  | materials l => exact materials_chunk hst l hc.1 hc.2 d
  | object o => exact object_chunk hst o hc d
  | ex l => exact ex_chunk hst l hc.1 hc.2 d
  | thumb t => exact thumb_chunk hst t hc d
  | xml file => exact xml_chunk hst file hc d
  | other l => exact inner_doc l hc.1 hc.2 d

theorem chunks_piece {st : Style} (hst : st.Ok) (l : List Chunk) (hl : ∀ c ∈ l, c.Ok F) (d : Document F) :
    DocPiece (l.flatMap (Chunk.text st)) d (l.foldl Chunk.add d) := by
  induction l generalizing d with
  | nil => exact DocPiece.refl d
  | cons c l ih =>
    rw [List.flatMap_cons, List.foldl_cons]
    exact (chunk_piece hst c (hl c (by simp)) d).trans (ih (fun b hb => hl b (by simp [hb])) _)

end

end Verif.Mqo
