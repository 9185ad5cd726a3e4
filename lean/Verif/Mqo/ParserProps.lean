import Verif.Mqo.Parser
import Verif.Text.ScannerProps

/-!
C101: the parser ends on every text. Also the lemmas that free the loops of their fuel.
-/

namespace Verif.Mqo

open Verif.Geom Verif.Text

/-- A parser that always gives a result and never goes back in the text. -/
def P.Good {α : Type} (p : P α) : Prop :=
  ∀ s, ∃ a s', p s = some (a, s') ∧ s'.rest.length ≤ s.rest.length

theorem P.bind_run {α β : Type} (x : P α) (f : α → P β) (s : St) :
    (x >>= f) s = match x s with
      | none => none
      | some (a, s') => f a s' := rfl

theorem P.pure_run {α : Type} (a : α) (s : St) : (pure a : P α) s = some (a, s) := rfl

theorem good_pure {α : Type} (a : α) : (pure a : P α).Good := fun s => ⟨a, s, rfl, le_refl _⟩

theorem good_bind {α β : Type} {x : P α} {f : α → P β} (hx : x.Good) (hf : ∀ a, (f a).Good) :
    (x >>= f).Good := by
  intro s
  obtain ⟨a, s1, h1, l1⟩ := hx s
  obtain ⟨b, s2, h2, l2⟩ := hf a s1
  exact ⟨b, s2, by rw [P.bind_run, h1]; exact h2, by omega⟩

section
variable {F : Type} [Zero F] [One F] [Neg F] [Mul F] [NumText F] [Uni]

theorem good_readFloat : (readFloat : P F).Good := by
  intro s
  have h1 := scan_le s
  have h2 := scan_le (scan s)
  simp only [readFloat]
  split <;> split <;> exact ⟨_, _, rfl, by omega⟩

omit [Zero F] [One F] [Neg F] [Mul F] [NumText F]

theorem good_readInt : readInt.Good := by
  intro s
  have h1 := scan_le s
  simp only [readInt]
  split <;> exact ⟨_, _, rfl, h1⟩

theorem good_readStr : readStr.Good := fun s => ⟨_, _, rfl, scan_le s⟩
theorem good_readIdent : readIdent.Good := fun s => ⟨_, _, rfl, scan_le s⟩
theorem good_skip : skip.Good := fun s => ⟨_, _, rfl, scan_le s⟩

theorem good_skipN (n : Nat) : (skipN n).Good := by
  induction n with
  | zero => exact good_pure _
  | succ n ih => exact good_bind good_skip fun _ => ih

theorem attrSkipLoop_total (line : Nat) (n : Nat) (s : St) (h : s.rest.length + 1 < n) :
    ∃ s', attrSkipLoop line n s = some s' ∧ s'.rest.length ≤ s.rest.length := by
  induction n generalizing s with
  | zero => omega
  | succ n ih =>
    rw [attrSkipLoop]
    split
    · split
      · exact ⟨s, rfl, le_refl _⟩
      · by_cases he : (scan s).tok = .eof
        · obtain ⟨m, rfl⟩ : ∃ m, n = m + 1 := ⟨n - 1, by omega⟩
          refine ⟨scan s, ?_, scan_le s⟩
          rw [attrSkipLoop, if_neg (by simp [he])]
        · have := scan_lt s he
          obtain ⟨s', h1, h2⟩ := ih (scan s) (by omega)
          exact ⟨s', h1, by omega⟩
    · exact ⟨s, rfl, le_refl _⟩

theorem good_attrSkip (line : Nat) : (attrSkip line).Good := by
  intro s
  have hs := scan_le s
  obtain ⟨s', h1, h2⟩ := attrSkipLoop_total line (s.rest.length + 2) (scan s) (by omega)
  exact ⟨(), s', by rw [attrSkip, h1], by omega⟩

/-- All handlers are good. -/
def GoodH {σ : Type} (h : Handlers σ) : Prop := ∀ n f, h n = some f → ∀ x, (f x).Good

theorem good_attrBody {σ : Type} {h : Handlers σ} (hh : GoodH h) (line : Nat) (name : Str) (x : σ) :
    (attrBody h line name x).Good := by
  rw [attrBody]
  cases hn : h name with
  | none => exact good_bind good_skip fun _ => good_bind (good_attrSkip line) fun _ => good_pure _
  | some f =>
    exact good_bind good_skip fun _ => good_bind (hh name f hn x) fun _ => good_bind good_skip fun _ => good_pure _

theorem attrLoop_total {σ : Type} {h : Handlers σ} (hh : GoodH h) (line : Nat) (n : Nat) (x : σ) (s : St)
    (hn : s.rest.length + 1 < n) :
    ∃ x' s', attrLoop h line n x s = some (x', s') ∧ s'.rest.length ≤ s.rest.length := by
  induction n generalizing x s with
  | zero => omega
  | succ n ih =>
    rw [attrLoop]
    split
    · obtain ⟨x1, s1, h1, l1⟩ := good_attrBody hh line s.text x s
      rw [h1]
      simp only
      split
      · exact ⟨x1, s1, rfl, l1⟩
      · by_cases he : (scan s1).tok = .eof
        · obtain ⟨m, rfl⟩ : ∃ m, n = m + 1 := ⟨n - 1, by omega⟩
          refine ⟨x1, scan s1, ?_, by have := scan_le s1; omega⟩
          rw [attrLoop, if_neg (by simp [he])]
        · have := scan_lt s1 he
          obtain ⟨x2, s2, h2, l2⟩ := ih x1 (scan s1) (by omega)
          exact ⟨x2, s2, h2, by omega⟩
    · exact ⟨x, s, rfl, le_refl _⟩

theorem good_procAttrs {σ : Type} {h : Handlers σ} (hh : GoodH h) (x : σ) : (procAttrs h x).Good := by
  intro s
  have hs := scan_le s
  obtain ⟨x', s', h1, h2⟩ := attrLoop_total hh s.lines (s.rest.length + 2) x (scan s) (by omega)
  exact ⟨x', s', h1, by omega⟩

theorem scan_eof_rest (s : St) (h : (scan s).tok ≠ .eof) : 0 < s.rest.length := by
  have := scan_lt s h
  omega

theorem scan_rest_mute (s : St) (b : Bool) : (scan { s with mute := b }).rest = (scan s).rest ∧
    (scan { s with mute := b }).tok = (scan s).tok ∧ (scan { s with mute := b }).text = (scan s).text := by
  simp [scan]

theorem skipBlockLoop_total (n depth : Nat) (s : St) (h : s.rest.length < n) :
    ∃ s', skipBlockLoop n depth s = some s' ∧ s'.rest.length ≤ s.rest.length := by
  induction n generalizing depth s with
  | zero => omega
  | succ n ih =>
    simp only [skipBlockLoop]
    have hle := scan_le s
    split
    · exact ⟨_, rfl, hle⟩
    · rename_i he
      have hlt := scan_lt s he
      split
      · split
        · exact ⟨_, rfl, hle⟩
        · obtain ⟨s', h1, h2⟩ := ih (depth - 1) { scan s with mute := false } (by simp only; omega)
          exact ⟨s', h1, by simp only at h2; omega⟩
      · split
        · obtain ⟨s', h1, h2⟩ := ih (depth + 1) { scan s with mute := true } (by simp only; omega)
          exact ⟨s', h1, by simp only at h2; omega⟩
        · obtain ⟨s', h1, h2⟩ := ih depth (scan s) (by omega)
          exact ⟨s', h1, by omega⟩

theorem good_skipBlock : skipBlock.Good := by
  intro s
  obtain ⟨s', h1, h2⟩ := skipBlockLoop_total (s.rest.length + 2) 0 { s with mute := true } (by simp)
  exact ⟨(), s', by rw [skipBlock, h1], h2⟩

omit [Uni] in
theorem good_arrLoop {σ : Type} {elem : σ → P σ} (he : ∀ x, (elem x).Good) (n : Nat) (x : σ) :
    (arrLoop elem n x).Good := by
  induction n generalizing x with
  | zero => exact good_pure _
  | succ n ih => exact good_bind (he x) fun y => ih y

theorem good_procArray {σ : Type} (init : σ → σ) {elem : σ → P σ} (he : ∀ x, (elem x).Good) (x : σ) :
    (procArray init elem x).Good :=
  good_bind good_readInt fun _ => good_bind good_skip fun _ => good_bind (good_arrLoop he _ _) fun _ =>
    good_bind good_skip fun _ => good_pure _

theorem good_objBody {σ : Type} {h : Handlers σ} (hh : GoodH h) (x : σ) : (objBody h x).Good := by
  intro s
  rw [objBody]
  split
  · obtain ⟨u, s1, h1, l1⟩ := good_skipBlock s
    rw [h1]
    simp only
    cases hn : h s1.text with
    | none => exact ⟨x, s1, rfl, l1⟩
    | some f =>
      obtain ⟨x2, s2, h2, l2⟩ := hh _ f hn x s1
      exact ⟨x2, s2, h2, by omega⟩
  · cases hn : h s.text with
    | none => exact ⟨x, s, rfl, le_refl _⟩
    | some f => exact hh _ f hn x s

theorem objLoop_total {σ : Type} {h : Handlers σ} (hh : GoodH h) (n : Nat) (x : σ) (s : St)
    (hn : s.rest.length + 1 < n) :
    ∃ x' s', objLoop h n x s = some (x', s') ∧ s'.rest.length ≤ s.rest.length := by
  induction n generalizing x s with
  | zero => omega
  | succ n ih =>
    rw [objLoop]
    split
    · exact ⟨x, s, rfl, le_refl _⟩
    · split
      · exact ⟨x, s, rfl, le_refl _⟩
      · obtain ⟨x1, s1, h1, l1⟩ := good_objBody hh x s
        rw [h1]
        simp only
        by_cases he : (scan s1).tok = .eof
        · obtain ⟨m, rfl⟩ : ∃ m, n = m + 1 := ⟨n - 1, by omega⟩
          refine ⟨x1, scan s1, ?_, by have := scan_le s1; omega⟩
          rw [objLoop, if_pos he]
        · have := scan_lt s1 he
          obtain ⟨x2, s2, h2, l2⟩ := ih x1 (scan s1) (by omega)
          exact ⟨x2, s2, h2, by omega⟩

theorem good_procObj {σ : Type} {h : Handlers σ} (hh : GoodH h) (x : σ) : (procObj h x).Good := by
  intro s
  have h1 := scan_le s
  have h2 := scan_le (scan s)
  obtain ⟨x', s', h3, h4⟩ := objLoop_total hh ((scan s).rest.length + 2) x (scan (scan s)) (by omega)
  exact ⟨x', s', h3, by omega⟩

omit [Uni] in
theorem good_readMany {α : Type} {p : P α} (hp : p.Good) (n : Nat) : (readMany p n).Good := by
  induction n with
  | zero => exact good_pure _
  | succ n ih => exact good_bind hp fun _ => good_bind ih fun _ => good_pure _

theorem good_readUIDs (n i : Nat) (m : List (Int × Int)) : (readUIDs n i m).Good := by
  induction n generalizing i m with
  | zero => exact good_pure _
  | succ n ih => exact good_bind good_readInt fun u => ih _ _
end

section
variable {F : Type} [Zero F] [One F] [Neg F] [Mul F] [NumText F] [Uni]

theorem good_readVec3 : (readVec3 : P (Vec3 F)).Good :=
  good_bind good_readFloat fun _ => good_bind good_readFloat fun _ => good_bind good_readFloat fun _ => good_pure _

theorem good_readVec2 : (readVec2 : P (Vec2 F)).Good :=
  good_bind good_readFloat fun _ => good_bind good_readFloat fun _ => good_pure _

theorem good_readVec4 : (readVec4 : P (Vec4 F)).Good :=
  good_bind good_readFloat fun _ => good_bind good_readFloat fun _ => good_bind good_readFloat fun _ =>
    good_bind good_readFloat fun _ => good_pure _

omit [Uni] in
theorem goodH_if {σ : Type} {c : Prop} [Decidable c] {f : σ → P σ} {r : Option (σ → P σ)}
    (hf : ∀ x, (f x).Good) (hr : ∀ g, r = some g → ∀ x, (g x).Good) :
    ∀ g, (if c then some f else r) = some g → ∀ x, (g x).Good := by
  intro g hg x
  split at hg
  · injection hg with h; subst h; exact hf x
  · exact hr g hg x

omit [Uni] in
theorem goodH_none {σ : Type} : ∀ g, (none : Option (σ → P σ)) = some g → ∀ x, (g x).Good := by
  intro g h; exact absurd h (by simp)

theorem good_materialAttrs : GoodH (materialAttrs (F := F)) := by
  intro n
  unfold materialAttrs
  repeat' (first
    | exact goodH_none
    | refine goodH_if (fun x => ?_) ?_
    | exact good_bind good_readFloat fun _ => good_pure _
    | exact good_bind good_readInt fun _ => good_pure _
    | exact good_bind good_readStr fun _ => good_pure _
    | exact good_bind good_readVec3 fun _ => good_pure _
    | exact good_bind good_readVec4 fun _ => good_pure _)

theorem good_readMaterial : (readMaterial : P (Material F)).Good :=
  good_bind good_readStr fun _ => good_procAttrs good_materialAttrs _

omit [Uni] in
theorem good_ite {α : Type} {c : Prop} [Decidable c] {p q : P α} (hp : p.Good) (hq : q.Good) :
    (if c then p else q).Good := by split <;> assumption

theorem good_readTyped (t : Str) : (readTyped t : P (Param F)).Good := by
  unfold readTyped
  refine good_ite ?_ (good_ite ?_ (good_ite ?_ (good_ite ?_ ?_)))
  · exact good_bind good_readInt fun _ => good_pure _
  · exact good_bind good_readFloat fun _ => good_pure _
  · exact good_bind good_readStr fun _ => good_pure _
  · exact good_bind good_readVec4 fun _ => good_pure _
  · exact good_bind good_readStr fun _ => good_pure _

theorem good_readTypedKeyValue : (readTypedKeyValue : P (Str × Param F)).Good :=
  good_bind good_readStr fun _ => good_bind good_readIdent fun _ => good_ite
    (good_bind good_readStr fun _ => good_bind good_readIdent fun _ => good_bind (good_readTyped _) fun _ => good_pure _)
    (good_bind (good_readTyped _) fun _ => good_pure _)

theorem good_ex2Attrs : GoodH (ex2Attrs (F := F)) := by
  intro n
  unfold ex2Attrs
  refine goodH_if (fun x => ?_) (goodH_if (fun x => ?_) (goodH_if (fun x => ?_) (goodH_if (fun x => ?_)
    (goodH_if (fun x => ?_) goodH_none))))
  · exact good_bind good_readStr fun _ => good_pure _
  · exact good_bind good_readStr fun _ => good_pure _
  · exact good_procArray _ (fun _ => good_bind good_readTypedKeyValue fun _ => good_pure _) _
  · exact good_procArray _ (fun _ => good_bind good_readStr fun _ => good_bind good_readStr fun _ => good_pure _) _
  · exact good_bind good_readStr fun _ => good_bind
      (good_procArray _ (fun _ => good_bind good_readTypedKeyValue fun _ => good_pure _) _) fun _ => good_pure _

theorem good_readMaterialEx : (readMaterialEx : P (Int × Ex2 F)).Good :=
  good_bind good_skip fun _ => good_bind good_readInt fun _ => good_bind (good_procObj good_ex2Attrs _) fun _ =>
    good_pure _

theorem good_readNormals (l : List Int) : (readNormals l : P (List (Option (Vec3 F)))).Good := by
  induction l with
  | nil => exact good_pure _
  | cons f l ih =>
    have h1 : (readNormal f : P (Option (Vec3 F))).Good := by
      unfold readNormal
      exact good_ite (good_bind good_readVec3 fun _ => good_pure _) (good_pure _)
    exact good_bind h1 fun _ => good_bind ih fun _ => good_pure _

theorem good_faceAttrs (vn : Nat) : GoodH (faceAttrs (F := F) vn) := by
  intro n
  unfold faceAttrs
  refine goodH_if (fun x => ?_) (goodH_if (fun x => ?_) (goodH_if (fun x => ?_) (goodH_if (fun x => ?_)
    (goodH_if (fun x => ?_) (goodH_if (fun x => ?_) goodH_none)))))
  · exact good_bind (good_readMany good_readInt _) fun _ => good_pure _
  · exact good_bind good_readInt fun _ => good_pure _
  · exact good_bind (good_readMany good_readVec2 _) fun _ => good_pure _
  · exact good_bind (good_readMany good_readInt _) fun _ => good_bind (good_readNormals _) fun _ => good_pure _
  · exact good_bind (good_readMany good_readFloat _) fun _ => good_pure _
  · exact good_bind good_readInt fun _ => good_pure _

theorem good_readFace : (readFace : P (Face F)).Good :=
  good_bind good_readInt fun _ => good_procAttrs (good_faceAttrs _) _

omit [Zero F] [One F] [Neg F] [Mul F] [NumText F] in
theorem good_vertexAttrs : GoodH (vertexAttrs (F := F)) := by
  intro n
  unfold vertexAttrs
  refine goodH_if (fun x => ?_) goodH_none
  exact good_bind good_skip fun _ => good_bind (good_readUIDs _ _ _) fun _ => good_bind good_skip fun _ => good_pure _

theorem good_objectAttrs : GoodH (objectAttrs (F := F)) := by
  intro n
  unfold objectAttrs
  repeat' (first
    | exact goodH_none
    | refine goodH_if (fun x => ?_) ?_
    | exact good_bind good_readFloat fun _ => good_pure _
    | exact good_bind good_readInt fun _ => good_pure _
    | exact good_bind good_readVec3 fun _ => good_pure _
    | exact good_procArray _ (fun _ => good_bind good_readVec3 fun _ => good_pure _) _
    | exact good_procArray _ (fun _ => good_bind good_readFace fun _ => good_pure _) _
    | exact good_procObj good_vertexAttrs _)

theorem good_readObject : (readObject : P (Object F)).Good :=
  good_bind good_readStr fun _ => good_procObj good_objectAttrs _

theorem good_sceneAttrs : GoodH (sceneAttrs (F := F)) := by
  intro n
  unfold sceneAttrs
  repeat' (first
    | exact goodH_none
    | refine goodH_if (fun x => ?_) ?_
    | exact good_bind good_readFloat fun _ => good_pure _
    | exact good_bind good_readInt fun _ => good_pure _
    | exact good_bind good_readVec3 fun _ => good_pure _)

theorem good_docBody (d : Document F) : (docBody d).Good := by
  intro s
  unfold docBody
  split
  · exact good_procArray _ (fun _ => good_bind good_readMaterial fun _ => good_pure _) _ s
  · split
    · exact good_bind good_readObject (fun _ => good_pure _) s
    · split
      · exact good_bind (good_skipN 5) (fun _ => good_bind good_skip fun _ => good_bind good_skipBlock fun _ =>
          good_pure _) s
      · split
        · exact good_procArray _ (fun _ => good_bind good_readMaterialEx fun _ => good_pure _) _ s
        · split
          · exact good_bind (good_procObj good_sceneAttrs _) (fun _ => good_pure _) s
          · split
            · exact good_bind good_readStr (fun _ => good_pure _) s
            · exact ⟨d, s, rfl, le_refl _⟩

theorem docLoop_total (n : Nat) (d : Document F) (s : St) (hn : s.rest.length + 1 < n) :
    ∃ r, docLoop n d s = some r := by
  induction n generalizing d s with
  | zero => omega
  | succ n ih =>
    rw [docLoop]
    split
    · exact ⟨_, rfl⟩
    · split
      · exact ⟨_, rfl⟩
      · obtain ⟨x1, s1, h1, l1⟩ := good_docBody d s
        rw [h1]
        simp only
        by_cases he : (scan s1).tok = .eof
        · obtain ⟨m, rfl⟩ : ∃ m, n = m + 1 := ⟨n - 1, by omega⟩
          exact ⟨_, by rw [docLoop, if_pos he]⟩
        · have := scan_lt s1 he
          exact ih x1 (scan s1) (by omega)

end

end Verif.Mqo
