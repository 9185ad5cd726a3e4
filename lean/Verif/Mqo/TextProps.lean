import Verif.Mqo.TextRound2

/-!
Properties of the MQO text (C25, C26, C101 - C104): what is written is read back, and what cannot come back.
-/

namespace Verif.Mqo

open Verif.Geom Verif.Text

section
variable {F : Type} [Zero F] [One F] [Neg F] [Mul F] [NumText F] [Uni]

/-- C101. The parser ends with a document (and a number of errors) on every text. -/
theorem parse_total (t : Str) : ∃ d e, (parse t : Option (Document F × Nat)) = some (d, e) := by
  have hs := scan_le ⟨t, 0, false, .eof, []⟩
  obtain ⟨r, hr⟩ := docLoop_total (F := F) (t.length + 2) ⟨none, [], [], none, none, none⟩
    (scan ⟨t, 0, false, .eof, []⟩) (by simp only at hs; omega)
  exact ⟨r.1, r.2.errs, by simp only [parse, hr]⟩

variable [NumLaws F]

/-- C102. A document that can be written is read back as its normal form, without an error. -/
theorem write_parse [DecidableEq F] [FloatOps F] (d : Document F) (hd : DocOk d) :
    parse (write d) = some (normDoc d, 0) := by
  have h := doc_piece d hd "Eof\n".toList (fun d' s' => d' = normDoc d ∧ s'.errs = 0)
    (fun s hs => eof_doc (normDoc d) s hs) ⟨write d, 0, false, .eof, []⟩
    (At.ws ⟨by simp only [write, List.append_assoc], rfl, rfl⟩)
  obtain ⟨n, d', s', hrun, rfl, he⟩ := h
  obtain ⟨r, hr⟩ := docLoop_total (F := F) ((write d).length + 2) ⟨none, [], [], none, none, none⟩
    (scan ⟨write d, 0, false, .eof, []⟩) (by have := scan_le ⟨write d, 0, false, .eof, []⟩; simp only at this; omega)
  have e1 := docLoop_mono _ (max n ((write d).length + 2)) _ _ _ hrun (le_max_left _ _)
  have e2 := docLoop_mono _ (max n ((write d).length + 2)) _ _ _ hr (le_max_right _ _)
  rw [e1] at e2
  simp only [parse]
  rw [hr, ← e2]
  simp only [he]

/-- C103. A document in normal form is read back unchanged. -/
theorem write_parse_same [DecidableEq F] [FloatOps F] (d : Document F) (hd : DocOk d) (hn : normDoc d = d) :
    parse (write d) = some (d, 0) := by rw [write_parse d hd, hn]

/-- C25. The objects, their points, the corners and the materials of their faces, and the materials come
back in the same order with the same numbers. -/
theorem write_parse_indexes [DecidableEq F] [FloatOps F] (d : Document F) (hd : DocOk d) :
    ∃ d', parse (write d) = some (d', 0) ∧
      d'.objects.map (fun o => (o.name, o.vertexes, o.faces.map fun f => (f.verts, f.material)))
        = d.objects.map (fun o => (o.name, o.vertexes, o.faces.map fun f => (f.verts, f.material))) ∧
      d'.materials.map (·.name) = d.materials.map (·.name) := by
  refine ⟨normDoc d, write_parse d hd, ?_, ?_⟩
  · simp only [normDoc, List.map_map]
    apply List.map_congr_left
    intro o _
    simp [normObject, normFace, Function.comp_def]
  · simp [normDoc, normMaterial, normMaterial0, Function.comp_def]

/-- C26. The part that holds: a face with a material is read back with it, together with everything that is
behind it on the line. Missing: faces with material -1 (`material_none_false`). -/
theorem face_material_partial (f : Face F) (hf : FaceTextOk f) (k : Str) (s : St) (hs : AtWs (writeFace f ++ k) s) :
    ∃ g s', readFace s = some (g, s') ∧ AtWs k s' ∧ g.material = f.material ∧ g.verts = f.verts ∧
      (f.uvs.length = f.verts.length → g.uvs = f.uvs) ∧ (f.normals.length = f.verts.length → g.normals = f.normals) := by
  obtain ⟨s', e, a⟩ := readFace_write f hf k s hs
  exact ⟨_, s', e, a, rfl, rfl, fun h => by simp [normFace, h], fun h => by simp [normFace, h]⟩

/-- C104. The part that holds: the other flags and numbers of objects come back. Missing: the lock
(`locked_false`). -/
theorem object_flags_partial [DecidableEq F] [FloatOps F] (d : Document F) (hd : DocOk d) :
    ∃ d', parse (write d) = some (d', 0) ∧
      d'.objects.map (fun o => (o.visible, o.folding, o.depth, o.shading, o.facet, o.mirror))
        = d.objects.map (fun o => (o.visible, o.folding, o.depth, o.shading, o.facet, o.mirror)) := by
  refine ⟨normDoc d, write_parse d hd, ?_⟩
  simp only [normDoc, List.map_map]
  apply List.map_congr_left
  intro o _
  rfl

end

/-! What a parsed document always satisfies. -/

/-- The parser keeps a property of the value under construction. -/
def Keeps {σ : Type} (I : σ → Prop) (p : σ → P σ) : Prop :=
  ∀ x s x' s', I x → p x s = some (x', s') → I x'

/-- Every handler keeps it. -/
def KeepsH {σ : Type} (I : σ → Prop) (h : Handlers σ) : Prop := ∀ n f, h n = some f → Keeps I f

theorem keeps_ite {σ : Type} {I : σ → Prop} {c : Prop} [Decidable c] {g : σ → P σ} {o : Option (σ → P σ)}
    (h1 : Keeps I g) (h2 : ∀ f, o = some f → Keeps I f) (f : σ → P σ)
    (hf : (if c then some g else o) = some f) : Keeps I f := by
  by_cases hc : c
  · rw [if_pos hc, Option.some.injEq] at hf; rw [← hf]; exact h1
  · rw [if_neg hc] at hf; exact h2 f hf

theorem keeps_bind {σ α : Type} {I : σ → Prop} {p : P α} {g : σ → α → σ}
    (h : ∀ x a s s', I x → p s = some (a, s') → I (g x a)) :
    Keeps I fun x => (do let a ← p; return g x a) := by
  intro x s x' s' hx he
  cases hp : p s with
  | none => simp [P.bind_run, hp] at he
  | some r =>
    obtain ⟨a, s1⟩ := r
    simp only [P.bind_run, hp, P.pure_run, Option.some.injEq, Prod.mk.injEq] at he
    rw [← he.1]
    exact h x a s s1 hx hp

theorem keeps_arrLoop {σ : Type} {I : σ → Prop} {elem : σ → P σ} (h : Keeps I elem) (n : Nat) :
    Keeps I (arrLoop elem n) := by
  induction n with
  | zero =>
    intro x s x' s' hx he
    simp only [arrLoop, P.pure_run, Option.some.injEq, Prod.mk.injEq] at he
    rw [← he.1]; exact hx
  | succ n ih =>
    intro x s x' s' hx he
    rw [arrLoop, P.bind_run] at he
    cases hp : elem x s with
    | none => simp [hp] at he
    | some r =>
      rw [hp] at he
      exact ih r.1 r.2 x' s' (h x s r.1 r.2 hx hp) he

section
variable [Uni]

theorem keeps_procArray {σ : Type} {I : σ → Prop} {init : σ → σ} {elem : σ → P σ} (hi : ∀ x, I x → I (init x))
    (h : Keeps I elem) : Keeps I (procArray init elem) := by
  intro x s x' s' hx he
  unfold procArray at he
  simp only [P.bind_run] at he
  cases h1 : readInt s with
  | none => simp [h1] at he
  | some r1 =>
    simp only [h1] at he
    cases h2 : skip r1.2 with
    | none => simp [h2] at he
    | some r2 =>
      simp only [h2] at he
      cases h3 : arrLoop elem r1.1.toNat (init x) r2.2 with
      | none => simp [h3] at he
      | some r3 =>
        simp only [h3] at he
        cases h4 : skip r3.2 with
        | none => simp [h4] at he
        | some r4 =>
          simp only [h4, P.pure_run, Option.some.injEq, Prod.mk.injEq] at he
          rw [← he.1]
          exact keeps_arrLoop h _ _ _ r3.1 r3.2 (hi x hx) h3

theorem keeps_objBody {σ : Type} {I : σ → Prop} {h : Handlers σ} (hh : KeepsH I h) : Keeps I (objBody h) := by
  have key : ∀ x (s : St) x' s', I x → (match h s.text with
      | some f => f x s
      | none => some (x, s)) = some (x', s') → I x' := by
    intro x s x' s' hx he
    cases hf : h s.text with
    | none =>
      simp only [hf, Option.some.injEq, Prod.mk.injEq] at he
      rw [← he.1]; exact hx
    | some f => rw [hf] at he; exact hh _ f hf x s x' s' hx he
  intro x s x' s' hx he
  unfold objBody at he
  split at he
  · cases hb : skipBlock s with
    | none => simp [hb] at he
    | some r => rw [hb] at he; exact key x r.2 x' s' hx he
  · exact key x s x' s' hx he

theorem keeps_objLoop {σ : Type} {I : σ → Prop} {h : Handlers σ} (hh : KeepsH I h) (n : Nat) :
    Keeps I (fun x s => objLoop h n x s) := by
  induction n with
  | zero => intro x s x' s' hx he; simp [objLoop] at he
  | succ n ih =>
    intro x s x' s' hx he
    simp only [objLoop] at he
    split at he
    · simp only [Option.some.injEq, Prod.mk.injEq] at he; rw [← he.1]; exact hx
    · split at he
      · simp only [Option.some.injEq, Prod.mk.injEq] at he; rw [← he.1]; exact hx
      · cases hb : objBody h x s with
        | none => simp [hb] at he
        | some r =>
          rw [hb] at he
          exact ih r.1 (scan r.2) x' s' (keeps_objBody hh x s r.1 r.2 hx hb) he

theorem keeps_procObj {σ : Type} {I : σ → Prop} {h : Handlers σ} (hh : KeepsH I h) : Keeps I (procObj h) := by
  intro x s x' s' hx he
  exact keeps_objLoop hh _ x _ x' s' hx he

theorem keeps_attrBody {σ : Type} {I : σ → Prop} {h : Handlers σ} (hh : KeepsH I h) (line : Nat) (name : Str) :
    Keeps I (attrBody h line name) := by
  intro x s x' s' hx he
  unfold attrBody at he
  cases hf : h name with
  | none =>
    simp only [hf, P.bind_run] at he
    cases h1 : skip s with
    | none => simp [h1] at he
    | some r1 =>
      simp only [h1] at he
      cases h2 : attrSkip line r1.2 with
      | none => simp [h2] at he
      | some r2 =>
        simp only [h2, P.pure_run, Option.some.injEq, Prod.mk.injEq] at he
        rw [← he.1]; exact hx
  | some f =>
    simp only [hf, P.bind_run] at he
    cases h1 : skip s with
    | none => simp [h1] at he
    | some r1 =>
      simp only [h1] at he
      cases h2 : f x r1.2 with
      | none => simp [h2] at he
      | some r2 =>
        simp only [h2] at he
        cases h3 : skip r2.2 with
        | none => simp [h3] at he
        | some r3 =>
          simp only [h3, P.pure_run, Option.some.injEq, Prod.mk.injEq] at he
          rw [← he.1]
          exact hh _ f hf x r1.2 r2.1 r2.2 hx h2

theorem keeps_attrLoop {σ : Type} {I : σ → Prop} {h : Handlers σ} (hh : KeepsH I h) (line n : Nat) :
    Keeps I (fun x s => attrLoop h line n x s) := by
  induction n with
  | zero => intro x s x' s' hx he; simp [attrLoop] at he
  | succ n ih =>
    intro x s x' s' hx he
    simp only [attrLoop] at he
    split at he
    · cases hb : attrBody h line s.text x s with
      | none => simp [hb] at he
      | some r =>
        rw [hb] at he
        have hr := keeps_attrBody hh line s.text x s r.1 r.2 hx hb
        simp only at he
        split at he
        · simp only [Option.some.injEq, Prod.mk.injEq] at he; rw [← he.1]; exact hr
        · exact ih r.1 (scan r.2) x' s' hr he
    · simp only [Option.some.injEq, Prod.mk.injEq] at he; rw [← he.1]; exact hx

theorem keeps_procAttrs {σ : Type} {I : σ → Prop} {h : Handlers σ} (hh : KeepsH I h) : Keeps I (procAttrs h) := by
  intro x s x' s' hx he
  exact keeps_attrLoop hh _ _ x _ x' s' hx he

/-- The reader of integers knows no sign. -/
theorem readInt_nonneg (s : St) (i : Int) (s' : St) (h : readInt s = some (i, s')) : 0 ≤ i := by
  simp only [readInt] at h
  split at h
  · simp only [Option.some.injEq, Prod.mk.injEq] at h; omega
  · simp only [Option.some.injEq, Prod.mk.injEq] at h; omega

variable {F : Type} [Zero F] [One F] [Neg F] [Mul F] [NumText F]

theorem keeps_faceAttrs (vn : Nat) : KeepsH (fun f : Face F => 0 ≤ f.material) (faceAttrs vn) := by
  intro n f hf
  unfold faceAttrs at hf
  split at hf; · injection hf with hf; subst hf; exact keeps_bind fun x a s s' hx _ => hx
  split at hf
  · injection hf with hf; subst hf; exact keeps_bind fun x a s s' hx he => readInt_nonneg s a s' he
  split at hf; · injection hf with hf; subst hf; exact keeps_bind fun x a s s' hx _ => hx
  split at hf
  · injection hf with hf; subst hf
    intro x s x' s' hx he
    simp only [P.bind_run] at he
    cases h1 : readMany readInt vn s with
    | none => simp [h1] at he
    | some r1 =>
      simp only [h1] at he
      cases h2 : (readNormals r1.1 r1.2 : Option (List (Option (Vec3 F)) × St)) with
      | none => simp [h2] at he
      | some r2 =>
        simp only [h2, P.pure_run, Option.some.injEq, Prod.mk.injEq] at he
        rw [← he.1]; exact hx
  split at hf; · injection hf with hf; subst hf; exact keeps_bind (g := fun x _ => x) fun x a s s' hx _ => hx
  split at hf; · injection hf with hf; subst hf; exact keeps_bind fun x a s s' hx _ => hx
  · exact absurd hf (by simp)

theorem readFace_material (s : St) (f : Face F) (s' : St) (h : readFace s = some (f, s')) : 0 ≤ f.material := by
  rw [readFace, P.bind_run] at h
  cases h1 : readInt s with
  | none => simp [h1] at h
  | some r => rw [h1] at h; exact keeps_procAttrs (keeps_faceAttrs _) _ _ _ _ (by simp) h

/-- What the parser guarantees for an object. -/
def ObjRead (o : Object F) : Prop := o.locked = false ∧ ∀ f ∈ o.faces, 0 ≤ f.material

omit [Zero F] [One F] [Neg F] [Mul F] [NumText F] in
theorem keeps_vertexAttrs : KeepsH (ObjRead (F := F)) vertexAttrs := by
  intro n f hf
  unfold vertexAttrs at hf
  split at hf
  · injection hf with hf
    subst hf
    intro x s x' s' hx he
    simp only [P.bind_run] at he
    cases h1 : skip s with
    | none => simp [h1] at he
    | some r1 =>
      simp only [h1] at he
      cases h2 : readUIDs x.vertexes.length 0 x.vertexByUID r1.2 with
      | none => simp [h2] at he
      | some r2 =>
        simp only [h2] at he
        cases h3 : skip r2.2 with
        | none => simp [h3] at he
        | some r3 =>
          simp only [h3, P.pure_run, Option.some.injEq, Prod.mk.injEq] at he
          rw [← he.1]; exact hx
  · exact absurd hf (by simp)

theorem keeps_objectAttrs : KeepsH (ObjRead (F := F)) objectAttrs := by
  intro n f hf
  unfold objectAttrs at hf
  revert hf
  revert f
  refine keeps_ite (keeps_bind (p := readInt) (g := fun (o : Object F) a => { o with uid := a })
    fun x a s s' hx _ => hx) ?_
  refine keeps_ite (keeps_bind (p := readInt) (g := fun (o : Object F) a => { o with depth := a })
    fun x a s s' hx _ => hx) ?_
  refine keeps_ite (keeps_bind (p := readInt) (g := fun (o : Object F) a => { o with folding := decide (0 < a) })
    fun x a s s' hx _ => hx) ?_
  refine keeps_ite (keeps_bind (p := readInt) (g := fun (o : Object F) a => { o with visible := decide (0 < a) })
    fun x a s s' hx _ => hx) ?_
  refine keeps_ite (keeps_bind (p := readInt) (g := fun (o : Object F) a => { o with shading := a })
    fun x a s s' hx _ => hx) ?_
  refine keeps_ite (keeps_bind (p := readFloat) (g := fun (o : Object F) a => { o with facet := a })
    fun x a s s' hx _ => hx) ?_
  refine keeps_ite (keeps_bind (p := readInt) (g := fun (o : Object F) a => { o with patch := a })
    fun x a s s' hx _ => hx) ?_
  refine keeps_ite (keeps_bind (p := readInt) (g := fun (o : Object F) a => { o with patchSegment := a })
    fun x a s s' hx _ => hx) ?_
  refine keeps_ite (keeps_bind (p := readInt) (g := fun (o : Object F) a => { o with mirror := a })
    fun x a s s' hx _ => hx) ?_
  refine keeps_ite (keeps_bind (p := readFloat) (g := fun (o : Object F) a => { o with mirrorDis := a })
    fun x a s s' hx _ => hx) ?_
  refine keeps_ite (keeps_bind (p := readVec3) (g := fun (o : Object F) a => { o with scale := some a })
    fun x a s s' hx _ => hx) ?_
  refine keeps_ite (keeps_bind (p := readVec3) (g := fun (o : Object F) a => { o with rotation := some ⟨a.y, a.x, a.z⟩ })
    fun x a s s' hx _ => hx) ?_
  refine keeps_ite (keeps_bind (p := readVec3) (g := fun (o : Object F) a => { o with translation := some a })
    fun x a s s' hx _ => hx) ?_
  refine keeps_ite (keeps_bind (p := readVec3) (g := fun (o : Object F) a => { o with color := some a })
    fun x a s s' hx _ => hx) ?_
  refine keeps_ite (keeps_procArray (fun x hx => hx) (keeps_bind (p := readVec3)
    (g := fun (o : Object F) a => { o with vertexes := o.vertexes ++ [a] }) fun x a s s' hx _ => hx)) ?_
  refine keeps_ite (keeps_procArray (fun x hx => ⟨hx.1, by simp⟩) (keeps_bind (p := readFace)
    (g := fun (o : Object F) a => { o with faces := o.faces ++ [a] }) fun x a s s' hx he => ⟨hx.1, ?_⟩)) ?_
  · intro g hg
    rcases List.mem_append.1 hg with hg | hg
    · exact hx.2 g hg
    · rw [List.mem_singleton.1 hg]; exact readFace_material s a s' he
  refine keeps_ite (keeps_procObj keeps_vertexAttrs) ?_
  intro f hf
  exact absurd hf (by simp)

theorem readObject_read (s : St) (o : Object F) (s' : St) (h : readObject s = some (o, s')) : ObjRead o := by
  rw [readObject, P.bind_run] at h
  cases h1 : readStr s with
  | none => simp [h1] at h
  | some r =>
    rw [h1] at h
    exact keeps_procObj keeps_objectAttrs _ _ _ _ ⟨rfl, by simp [newObject]⟩ h

def DocRead (d : Document F) : Prop := ∀ o ∈ d.objects, ObjRead o

theorem keeps_docBody : Keeps (DocRead (F := F)) docBody := by
  intro d s d' s' hd he
  unfold docBody at he
  split at he
  · exact keeps_procArray (init := id) (fun x hx => hx) (keeps_bind (p := readMaterial)
      (g := fun (d : Document F) m => { d with materials := d.materials ++ [m] }) fun x a s s' hx _ => hx) d s d' s' hd he
  split at he
  · refine keeps_bind (I := DocRead (F := F)) (p := readObject)
      (g := fun d o => { d with objects := d.objects ++ [o] }) (fun x a s s' hx ha => ?_) d s d' s' hd he
    intro o ho
    rcases List.mem_append.1 ho with ho | ho
    · exact hx o ho
    · rw [List.mem_singleton.1 ho]; exact readObject_read s a s' ha
  split at he
  · simp only [P.bind_run] at he
    cases h1 : skipN 5 s with
    | none => simp [h1] at he
    | some r1 =>
      simp only [h1] at he
      cases h2 : skip r1.2 with
      | none => simp [h2] at he
      | some r2 =>
        simp only [h2] at he
        cases h3 : skipBlock r2.2 with
        | none => simp [h3] at he
        | some r3 =>
          simp only [h3, P.pure_run, Option.some.injEq, Prod.mk.injEq] at he
          rw [← he.1]; exact hd
  split at he
  · exact keeps_procArray (init := id) (fun x hx => hx) (keeps_bind (p := readMaterialEx)
      (g := fun (d : Document F) r => { d with materials := setEx2 r.1 r.2 d.materials })
      fun x a s s' hx _ => hx) d s d' s' hd he
  split at he
  · exact keeps_bind (I := DocRead (F := F)) (p := procObj sceneAttrs emptyScene)
      (g := fun d c => { d with scene := some c }) (fun x a s s' hx ha => hx) d s d' s' hd he
  split at he
  · exact keeps_bind (I := DocRead (F := F)) (p := readStr) (g := fun d _ => d) (fun x a s s' hx ha => hx)
      d s d' s' hd he
  · simp only [Option.some.injEq, Prod.mk.injEq] at he; rw [← he.1]; exact hd

theorem keeps_docLoop (n : Nat) : Keeps (DocRead (F := F)) (fun d s => docLoop n d s) := by
  induction n with
  | zero => intro x s x' s' hx he; simp [docLoop] at he
  | succ n ih =>
    intro x s x' s' hx he
    simp only [docLoop] at he
    split at he
    · simp only [Option.some.injEq, Prod.mk.injEq] at he; rw [← he.1]; exact hx
    · split at he
      · simp only [Option.some.injEq, Prod.mk.injEq] at he; rw [← he.1]; exact hx
      · cases hb : docBody x s with
        | none => simp [hb] at he
        | some r =>
          rw [hb] at he
          exact ih r.1 (scan r.2) x' s' (keeps_docBody x s r.1 r.2 hx hb) he

theorem parse_read (t : Str) (d : Document F) (e : Nat) (h : parse t = some (d, e)) : DocRead d := by
  simp only [parse] at h
  cases hr : docLoop (t.length + 2) (⟨none, [], [], none, none, none⟩ : Document F)
      (scan ⟨t, 0, false, .eof, []⟩) with
  | none => simp [hr] at h
  | some r =>
    simp only [hr, Option.some.injEq, Prod.mk.injEq] at h
    rw [← h.1]
    exact keeps_docLoop _ _ _ r.1 r.2 (by simp [DocRead]) hr

/-- C26 is false: whatever the text, no face of the document that is read has a negative material. A face
without material (-1) does not come back. -/
theorem material_none_false (t : Str) (d : Document F) (e : Nat) (h : parse t = some (d, e)) :
    ∀ o ∈ d.objects, ∀ f ∈ o.faces, f.material ≠ -1 := by
  intro o ho f hf
  have := (parse_read t d e h o ho).2 f hf
  omega

/-- C104 is false: whatever the text, no object of the document that is read is locked, although the
writer writes the flag. -/
theorem locked_false (t : Str) (d : Document F) (e : Nat) (h : parse t = some (d, e)) :
    ∀ o ∈ d.objects, o.locked = false := fun o ho => (parse_read t d e h o ho).1

end

/-! A concrete document: the numbers are integers, letters and digits are those of ASCII. -/

section Examples

local instance : Uni where
  letter := Char.isAlpha
  digit := Char.isDigit
  letter_ascii := fun _ _ => rfl
  digit_ascii := fun _ _ => rfl

local instance : NumText Int where
  v := showInt
  f2 := showInt
  f3 := showInt
  f4 := showInt
  f6 := showInt
  parse := fun t => (atoi t : Int)
  facet := 59

local instance : FloatOps Int := ⟨id, fun a b => decide (a < b), fun a b => decide (a ≤ b)⟩

theorem showInt_ok (x : Int) (h : x.natAbs ≤ maxInt) : NumOk (F := Int) (showInt x) x := by
  refine ⟨natLit x.natAbs, natLit_ok _, ?_⟩
  rw [natLit_text]
  unfold showInt
  by_cases hx : x < 0
  · rw [if_pos hx]
    refine Or.inr ⟨rfl, ?_⟩
    show ((atoi (showNat x.natAbs) : Nat) : Int) * (-1) = x
    rw [atoi_showNat _ h]; omega
  · rw [if_neg hx]
    have : x.toNat = x.natAbs := by omega
    refine Or.inl ⟨by rw [this], ?_⟩
    show ((atoi (showNat x.natAbs) : Nat) : Int) * 1 = x
    rw [atoi_showNat _ h]; omega

local instance : NumLaws Int where
  fin := fun x => x.natAbs ≤ maxInt
  r2 := id
  r3 := id
  r4 := id
  r6 := id
  v_ok := showInt_ok
  f2_ok := showInt_ok
  f3_ok := showInt_ok
  f4_ok := showInt_ok
  f6_ok := showInt_ok

/-- A quadrangle and a triangle with texture coordinates and normals. -/
def exObject : Object Int :=
  { newObject 60 "body 1".toList with
    uid := 3, depth := 1, visible := false, mirror := 1, mirrorDis := 5, patch := 2, patchSegment := 4,
    color := some ⟨1, 0, -1⟩, translation := some ⟨0, -7, 2⟩, rotation := some ⟨1, 2, 3⟩,
    vertexes := [⟨0, 0, 0⟩, ⟨1, 0, 0⟩, ⟨1, -1, 0⟩, ⟨0, 1, 0⟩]
    vertexByUID := [(1, 0), (9, 1), (3, 2), (4, 3)]
    faces := [⟨7, [0, 1, 2, 3], 1, [], []⟩,
      ⟨0, [3, 2, 0], 0, [⟨0, 1⟩, ⟨1, 1⟩, ⟨-1, 0⟩], [some ⟨0, 0, 1⟩, none, some ⟨-1, 0, 0⟩]⟩] }

def exDoc : Document Int :=
  ⟨some ⟨⟨0, 1, 2⟩, ⟨3, 4, 5⟩, ⟨6, 7, -8⟩, 9, 1, 100, true, some ⟨1, 2, 3⟩⟩,
   [⟨"skin".toList, 5, ⟨1, 1, 1, 1⟩, 1, 2, 0, 0, 5, "a/b.png".toList, [], "x.png".toList, none, true, 3,
      some ⟨"hlsl".toList, "vrm".toList, [("Edge.Width".toList, .float (-2)), ("Wrap".toList, .int 3),
        ("Culling".toList, .bool true)], [], []⟩⟩,
    ⟨"second".toList, 0, ⟨0, 0, 0, 1⟩, 0, 0, 0, 0, 0, [], [], [], none, false, 0, none⟩],
   [exObject], none, none, none⟩

/-- `DocOk` on concrete documents is checked field by field. -/
theorem finV_ex (v : Vec3 Int) (h : v.x.natAbs ≤ maxInt ∧ v.y.natAbs ≤ maxInt ∧ v.z.natAbs ≤ maxInt) : FinV v := h

theorem exDoc_ok : DocOk exDoc where
  scene := by
    intro s hs
    injection hs with hs
    subst hs
    refine ⟨?_, ?_, ?_, ?_, ?_, ?_, ?_⟩
    · exact finV_ex _ (by decide)
    · exact finV_ex _ (by decide)
    · exact finV_ex _ (by decide)
    · show Int.natAbs _ ≤ maxInt; decide
    · show Int.natAbs _ ≤ maxInt; decide
    · show Int.natAbs _ ≤ maxInt; decide
    · intro v hv; injection hv with hv; subst hv; exact finV_ex _ (by decide)
  count := by decide
  material := by
    intro m hm
    simp only [exDoc, List.mem_cons, List.not_mem_nil, or_false] at hm
    have hfin : ∀ x : Int, x.natAbs ≤ maxInt → NumLaws.fin x := fun _ h => h
    rcases hm with rfl | rfl <;>
    exact ⟨by decide, by decide, ⟨by decide, by decide⟩,
      ⟨hfin _ (by decide), hfin _ (by decide), hfin _ (by decide), hfin _ (by decide)⟩,
      hfin _ (by decide), hfin _ (by decide), hfin _ (by decide), hfin _ (by decide), hfin _ (by decide),
      by decide, by decide, by decide⟩
  ex2 := by
    intro m hm e he
    simp only [exDoc, List.mem_cons, List.not_mem_nil, or_false] at hm
    rcases hm with rfl | rfl
    · injection he with he
      subst he
      refine ⟨by decide, by decide, by decide, ?_, by decide⟩
      intro p hp
      simp only [List.mem_cons, List.not_mem_nil, or_false] at hp
      rcases hp with rfl | rfl | rfl
      · exact ⟨Or.inr ⟨"Edge".toList, "Width".toList, by decide, by decide, by decide⟩,
          (by show Int.natAbs _ ≤ maxInt; decide)⟩
      · exact ⟨Or.inl (by decide), ⟨by decide, by decide⟩⟩
      · exact ⟨Or.inl (by decide), trivial⟩
    · exact absurd he (by simp)
  object := by
    intro o ho
    simp only [exDoc, List.mem_singleton] at ho
    subst ho
    have hfin : ∀ x : Int, x.natAbs ≤ maxInt → NumLaws.fin x := fun _ h => h
    refine ⟨by decide, by decide, ⟨by decide, by decide⟩, ⟨by decide, by decide⟩, hfin _ (by decide),
      ⟨by decide, by decide⟩, hfin _ (by decide), by decide, ⟨by decide, by decide⟩, ?_, ?_, ?_, ?_, by decide, ?_, ?_,
      by decide, ?_⟩
    · intro v hv; injection hv with hv; subst hv; exact finV_ex _ (by decide)
    · intro v hv; injection hv with hv; subst hv; exact finV_ex _ (by decide)
    · intro v hv; injection hv with hv; subst hv; exact finV_ex _ (by decide)
    · intro v hv; injection hv with hv; subst hv; exact finV_ex _ (by decide)
    · intro v hv
      have : v.x.natAbs ≤ maxInt ∧ v.y.natAbs ≤ maxInt ∧ v.z.natAbs ≤ maxInt := by
        revert v; decide
      exact this
    · show ∀ i < exObject.vertexes.length, 0 ≤ uidLine exObject.vertexByUID i ∧ uidLine exObject.vertexByUID i ≤ maxInt
      decide
    · intro f hf
      simp only [exObject, List.mem_cons, List.not_mem_nil, or_false] at hf
      rcases hf with rfl | rfl
      · exact ⟨by decide, by decide, ⟨by decide, by decide⟩, by decide, by simp, by simp⟩
      · refine ⟨by decide, by decide, ⟨by decide, by decide⟩, by decide, ?_, ?_⟩
        · show ∀ t ∈ _, Int.natAbs _ ≤ maxInt ∧ Int.natAbs _ ≤ maxInt
          decide
        · intro v hv
          simp only [List.mem_cons, List.not_mem_nil, or_false, Option.some.injEq, reduceCtorEq, false_or] at hv
          rcases hv with rfl | rfl <;> exact finV_ex _ (by decide)

/-- The hypothesis `DocOk` of `vertexID_saved_false` (UidProps). -/
example : DocOk { exDoc with objects := [{ exObject with vertexByUID := [(2, 0)] }] } := by
  have h := exDoc_ok.object exObject (by simp [exDoc])
  refine ⟨exDoc_ok.scene, exDoc_ok.count, exDoc_ok.material, exDoc_ok.ex2, ?_⟩
  intro o ho
  rw [List.mem_singleton.mp ho]
  have hu : ∀ i < exObject.vertexes.length, 0 ≤ uidLine [(2, 0)] i ∧ uidLine [(2, 0)] i ≤ maxInt := by decide
  exact { h with uids := hu }

/-- The round trip of the example; it is in normal form. -/
example : normDoc exDoc = exDoc := by decide +kernel

example : parse (write exDoc) = some (exDoc, 0) :=
  write_parse_same exDoc exDoc_ok (by decide +kernel)

example : ∃ d', parse (write exDoc) = some (d', 0) ∧ d'.materials.map (·.name) = ["skin".toList, "second".toList] :=
  let ⟨d', h1, _, h3⟩ := write_parse_indexes exDoc exDoc_ok
  ⟨d', h1, h3⟩

/-- The parser on a broken text (`parse_total`): it ends with errors. -/
example : ((parse "Object \"a\" { face 2 { 3 V(0 1".toList : Option (Document Int × Nat)).map (·.2)).isSome = true := by
  decide +kernel

/-- C26: the texture coordinates behind `M(-1)` are lost ... -/
example : (parse (write (⟨none, [], [{ newObject 60 "a".toList with
      vertexes := [⟨0, 0, 0⟩, ⟨1, 0, 0⟩, ⟨0, 1, 0⟩]
      faces := [⟨0, [0, 1, 2], -1, [⟨0, 0⟩, ⟨1, 0⟩, ⟨0, 1⟩], []⟩] }], none, none, none⟩ : Document Int))).map
      (fun r => r.1.objects.map fun o => o.faces)
    = some [[⟨0, [0, 1, 2], 0, [], []⟩]] := by decide +kernel

/-- ... and without texture coordinates the next face loses its corners. -/
example : (parse (write (⟨none, [], [{ newObject 60 "a".toList with
      vertexes := [⟨0, 0, 0⟩, ⟨1, 0, 0⟩, ⟨0, 1, 0⟩]
      faces := [⟨0, [0, 1, 2], -1, [], []⟩, ⟨0, [2, 1, 0], 3, [], []⟩] }], none, none, none⟩ : Document Int))).map
      (fun r => r.1.objects.map fun o => o.faces.map fun f => (f.verts, f.material))
    = some [[([0, 1, 2], 0), ([], 3)]] := by decide +kernel

/-- C104: the flag of the second object is lost. -/
example : (parse (write (⟨none, [], [newObject 60 "a".toList, { newObject 60 "b".toList with locked := true }],
      none, none, none⟩ : Document Int))).map (fun r => r.1.objects.map fun o => o.locked)
    = some [false, false] := by decide +kernel

end Examples

end Verif.Mqo
