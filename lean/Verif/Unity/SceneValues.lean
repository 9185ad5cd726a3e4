import Verif.Unity.SceneLoad

/-! Which values the elements of an instance of a prefab have: the last modification of each property. -/

namespace Verif.Unity

open Verif.Geom

variable {F : Type}

set_option linter.unusedSectionVars false

/-- A modification changes the element with an id. -/
def targets (m : Modification F) (j : Int) : Bool :=
  match m.target with
  | some r => decide (r.fileID = j) && decide (r.fileID ≠ 0)
  | none => false

/-- The value of a property: the last of the modifications of the element with id `j` that name it, else the value in
the file. -/
def changed {α : Type} (mods : List (Modification F)) (j : Int) (name : String) (rest : PathRest → Bool)
    (value : Modification F → α) (orig : α) : α :=
  match (mods.filter fun m => targets m j && (decide (m.name = name.toList) && rest m.rest)).getLast? with
  | some m => value m
  | none => orig

theorem modsFor_targets (mods : List (Modification F)) (j : Int) : modsFor mods j = mods.filter fun m => targets m j := by
  unfold modsFor targets
  congr 1

/-- A property is set by the last modification that sets it. -/
theorem fold_last {α β : Type} (get : β → α) (step : Modification F → β → β) (P : Modification F → Bool)
    (val : Modification F → α) (hstep : ∀ m b, get (step m b) = if P m then val m else get b) (ms : List (Modification F)) :
    ∀ b, get (ms.foldl (fun b m => step m b) b) = match (ms.filter P).getLast? with
      | some m => val m
      | none => get b := by
  induction ms with
  | nil => exact fun b => rfl
  | cons m ms ih =>
    intro b
    rw [List.foldl_cons, ih, hstep]
    by_cases hp : P m = true
    · rw [List.filter_cons_of_pos hp]
      cases hl : (ms.filter P).getLast? with
      | none =>
        rw [List.getLast?_eq_none_iff] at hl
        simp [hl, hp]
      | some x =>
        have : (m :: ms.filter P).getLast? = some x := by
          rw [List.getLast?_cons, hl]
          rfl
        rw [this]
    · rw [List.filter_cons_of_neg hp]
      simp [hp]

theorem fold_changed {α β : Type} (get : β → α) (step : Modification F → β → β) (name : String) (rest : PathRest → Bool)
    (val : Modification F → α)
    (hstep : ∀ m b, get (step m b) = if decide (m.name = name.toList) && rest m.rest then val m else get b)
    (mods : List (Modification F)) (j : Int) (b : β) :
    get ((modsFor mods j).foldl (fun b m => step m b) b) = changed mods j name rest val (get b) := by
  rw [fold_last get step _ val hstep, modsFor_targets, List.filter_filter]
  rw [changed]
  have e : (fun m : Modification F => (decide (m.name = name.toList) && rest m.rest) && targets m j) =
      fun m => targets m j && (decide (m.name = name.toList) && rest m.rest) := by
    funext m
    exact Bool.and_comm _ _
  rw [e]

variable [Field F]

/-- One modification of a game object. -/
def modifyObject (trunc : F → Int) (m : Modification F) (o : GameObject) : GameObject :=
  if m.name = "m_Name".toList then { o with name := m.value.string }
  else if m.name = "m_IsActive".toList then { o with active := m.value.integer trunc }
  else o

/-- One modification of a transform. -/
def modifyTransform (m : Modification F) (t : Transform F) : Transform F :=
  if m.name = "m_LocalPosition".toList then { t with position := setVec3 t.position m.rest m.value.number }
  else if m.name = "m_LocalRotation".toList then { t with rotation := setVec4 t.rotation m.rest m.value.number }
  else if m.name = "m_LocalScale".toList then { t with scale := setVec3 t.scale m.rest m.value.number }
  else t

/-- One modification of a renderer. -/
def modifyRenderer (trunc : F → Int) (m : Modification F) (r : Int × List (Option Ref)) : Int × List (Option Ref) :=
  if m.name = "m_Enabled".toList then (m.value.integer trunc, r.2)
  else if m.name = "m_Materials".toList then
    match m.rest with
    | .data i => (r.1, r.2.set i m.reference)
    | _ => r
  else r

theorem modifyEach_object (trunc : F → Int) (ms : List (Modification F)) : ∀ o,
    modifyEach trunc ms (.object o) = .object (ms.foldl (fun o m => modifyObject trunc m o) o) := by
  induction ms with
  | nil => exact fun o => rfl
  | cons m ms ih =>
    intro o
    have : modify trunc m (.object o) = .object (modifyObject trunc m o) := by
      simp only [modify, modifyObject]
      split
      · rfl
      · split <;> rfl
    rw [List.foldl_cons, ← ih, ← this]
    rfl

theorem modifyEach_transform (trunc : F → Int) (ms : List (Modification F)) : ∀ t,
    modifyEach trunc ms (.transform t) = .transform (ms.foldl (fun t m => modifyTransform m t) t) := by
  induction ms with
  | nil => exact fun t => rfl
  | cons m ms ih =>
    intro t
    have : modify trunc m (.transform t) = .transform (modifyTransform m t) := by
      simp only [modify, modifyTransform]
      split
      · rfl
      · split
        · rfl
        · split <;> rfl
    rw [List.foldl_cons, ← ih, ← this]
    rfl

theorem modifyEach_renderer (trunc : F → Int) (ms : List (Modification F)) : ∀ r : Int × List (Option Ref),
    modifyEach trunc ms (.renderer r.1 r.2) = .renderer (ms.foldl (fun r m => modifyRenderer trunc m r) r).1
      (ms.foldl (fun r m => modifyRenderer trunc m r) r).2 := by
  induction ms with
  | nil => exact fun t => rfl
  | cons m ms ih =>
    intro t
    have : modify trunc m (.renderer t.1 t.2) = .renderer (modifyRenderer trunc m t).1 (modifyRenderer trunc m t).2 := by
      simp only [modify, modifyRenderer]
      split
      · rfl
      · split
        · cases m.rest <;> rfl
        · rfl
    rw [List.foldl_cons, ← ih, ← this]
    rfl

theorem modifyEach_other (trunc : F → Int) (ms : List (Modification F)) : ∀ c,
    modifyEach trunc ms (.other c) = .other (ms.foldl (fun c m => modifyComp trunc m c) c) := by
  induction ms with
  | nil => exact fun c => rfl
  | cons m ms ih => exact fun c => ih _

/-- Modifications of a component are modifications of its fields. -/
theorem comp_fold {β : Type} (trunc : F → Int) (mk : β → Comp F) (step : Modification F → β → β)
    (hs : ∀ m b, modifyComp trunc m (mk b) = mk (step m b)) (ms : List (Modification F)) : ∀ b,
    ms.foldl (fun c m => modifyComp trunc m c) (mk b) = mk (ms.foldl (fun b m => step m b) b) := by
  induction ms with
  | nil => exact fun b => rfl
  | cons m ms ih =>
    intro b
    rw [List.foldl_cons, List.foldl_cons, hs, ih]

theorem name_ne1 : "m_LocalPosition".toList ≠ "m_LocalRotation".toList := by decide
theorem name_ne2 : "m_LocalPosition".toList ≠ "m_LocalScale".toList := by decide
theorem name_ne3 : "m_LocalRotation".toList ≠ "m_LocalScale".toList := by decide
theorem name_ne4 : "m_Name".toList ≠ "m_IsActive".toList := by decide
theorem name_ne5 : "m_Enabled".toList ≠ "m_Materials".toList := by decide
theorem fld_xy : (PathRest.field "x".toList) ≠ .field "y".toList := by decide
theorem fld_xz : (PathRest.field "x".toList) ≠ .field "z".toList := by decide
theorem fld_xw : (PathRest.field "x".toList) ≠ .field "w".toList := by decide
theorem fld_yz : (PathRest.field "y".toList) ≠ .field "z".toList := by decide
theorem fld_yw : (PathRest.field "y".toList) ≠ .field "w".toList := by decide
theorem fld_zw : (PathRest.field "z".toList) ≠ .field "w".toList := by decide

/-- A component of a vector is named. -/
def comp (c : String) (r : PathRest) : Bool := decide (r = .field c.toList)

theorem comp_if (c : String) (r : PathRest) (a b : F) :
    (if comp c r then a else b) = if r = .field c.toList then a else b := by
  unfold comp
  by_cases h : r = .field c.toList
  · rw [if_pos h, if_pos (decide_eq_true h)]
  · rw [if_neg h, if_neg (by rw [decide_eq_false h]; exact Bool.false_ne_true)]

theorem setVec3_x (v : Vec3 F) (r : PathRest) (a : F) : (setVec3 v r a).x = if comp "x" r then a else v.x := by
  rw [comp_if]
  unfold setVec3
  by_cases hx : r = .field "x".toList
  · simp only [if_pos hx]
  · simp only [if_neg hx]
    split
    · rfl
    · skip
      split <;> rfl

theorem setVec3_y (v : Vec3 F) (r : PathRest) (a : F) : (setVec3 v r a).y = if comp "y" r then a else v.y := by
  rw [comp_if]
  unfold setVec3
  by_cases hx : r = .field "x".toList
  · have hn : r ≠ .field "y".toList := by rw [hx]; exact fld_xy
    simp only [if_pos hx, if_neg hn]
  · simp only [if_neg hx]
    by_cases hy : r = .field "y".toList
    · simp only [if_pos hy]
    · simp only [if_neg hy]
      split <;> rfl

theorem setVec3_z (v : Vec3 F) (r : PathRest) (a : F) : (setVec3 v r a).z = if comp "z" r then a else v.z := by
  rw [comp_if]
  unfold setVec3
  by_cases hx : r = .field "x".toList
  · have hn : r ≠ .field "z".toList := by rw [hx]; exact fld_xz
    simp only [if_pos hx, if_neg hn]
  · simp only [if_neg hx]
    by_cases hy : r = .field "y".toList
    · have hn : r ≠ .field "z".toList := by rw [hy]; exact fld_yz
      simp only [if_pos hy, if_neg hn]
    · simp only [if_neg hy]
      by_cases hz : r = .field "z".toList
      · simp only [if_pos hz]
      · simp only [if_neg hz]

theorem setVec4_x (v : Vec4 F) (r : PathRest) (a : F) : (setVec4 v r a).x = if comp "x" r then a else v.x := by
  rw [comp_if]
  unfold setVec4
  by_cases hx : r = .field "x".toList
  · simp only [if_pos hx]
  · simp only [if_neg hx]
    split
    · rfl
    · skip
      split
      · rfl
      · skip
        split <;> rfl

theorem setVec4_y (v : Vec4 F) (r : PathRest) (a : F) : (setVec4 v r a).y = if comp "y" r then a else v.y := by
  rw [comp_if]
  unfold setVec4
  by_cases hx : r = .field "x".toList
  · have hn : r ≠ .field "y".toList := by rw [hx]; exact fld_xy
    simp only [if_pos hx, if_neg hn]
  · simp only [if_neg hx]
    by_cases hy : r = .field "y".toList
    · simp only [if_pos hy]
    · simp only [if_neg hy]
      split
      · rfl
      · skip
        split <;> rfl

theorem setVec4_z (v : Vec4 F) (r : PathRest) (a : F) : (setVec4 v r a).z = if comp "z" r then a else v.z := by
  rw [comp_if]
  unfold setVec4
  by_cases hx : r = .field "x".toList
  · have hn : r ≠ .field "z".toList := by rw [hx]; exact fld_xz
    simp only [if_pos hx, if_neg hn]
  · simp only [if_neg hx]
    by_cases hy : r = .field "y".toList
    · have hn : r ≠ .field "z".toList := by rw [hy]; exact fld_yz
      simp only [if_pos hy, if_neg hn]
    · simp only [if_neg hy]
      by_cases hz : r = .field "z".toList
      · simp only [if_pos hz]
      · simp only [if_neg hz]
        split <;> rfl

theorem setVec4_w (v : Vec4 F) (r : PathRest) (a : F) : (setVec4 v r a).w = if comp "w" r then a else v.w := by
  rw [comp_if]
  unfold setVec4
  by_cases hx : r = .field "x".toList
  · have hn : r ≠ .field "w".toList := by rw [hx]; exact fld_xw
    simp only [if_pos hx, if_neg hn]
  · simp only [if_neg hx]
    by_cases hy : r = .field "y".toList
    · have hn : r ≠ .field "w".toList := by rw [hy]; exact fld_yw
      simp only [if_pos hy, if_neg hn]
    · simp only [if_neg hy]
      by_cases hz : r = .field "z".toList
      · have hn : r ≠ .field "w".toList := by rw [hz]; exact fld_zw
        simp only [if_pos hz, if_neg hn]
      · simp only [if_neg hz]
        by_cases hw : r = .field "w".toList
        · simp only [if_pos hw]
        · simp only [if_neg hw]

theorem modifyTransform_position (m : Modification F) (t : Transform F) : (modifyTransform m t).position =
    if m.name = "m_LocalPosition".toList then setVec3 t.position m.rest m.value.number else t.position := by
  unfold modifyTransform
  split
  · rfl
  · split
    · rfl
    · split <;> rfl

theorem modifyTransform_rotation (m : Modification F) (t : Transform F) : (modifyTransform m t).rotation =
    if m.name = "m_LocalRotation".toList then setVec4 t.rotation m.rest m.value.number else t.rotation := by
  unfold modifyTransform
  by_cases h1 : m.name = "m_LocalPosition".toList
  · have h2 : m.name ≠ "m_LocalRotation".toList := by rw [h1]; exact name_ne1
    rw [if_pos h1, if_neg h2]
  · rw [if_neg h1]
    split
    · rfl
    · split <;> rfl

theorem modifyTransform_scale (m : Modification F) (t : Transform F) : (modifyTransform m t).scale =
    if m.name = "m_LocalScale".toList then setVec3 t.scale m.rest m.value.number else t.scale := by
  unfold modifyTransform
  by_cases h1 : m.name = "m_LocalPosition".toList
  · have h2 : m.name ≠ "m_LocalScale".toList := by rw [h1]; exact name_ne2
    rw [if_pos h1, if_neg h2]
  · rw [if_neg h1]
    by_cases h2 : m.name = "m_LocalRotation".toList
    · have h3 : m.name ≠ "m_LocalScale".toList := by rw [h2]; exact name_ne3
      rw [if_pos h2, if_neg h3]
    · rw [if_neg h2]
      split <;> rfl

theorem ite_field {v v' a : F} {n : Prop} [Decidable n] {c : Bool} (h : v' = if c then a else v) :
    (if n then v' else v) = if (decide n && c) = true then a else v := by
  rw [h]
  by_cases hn : n <;> cases c <;> simp [hn]

theorem fld_rg : (PathRest.field "r".toList) ≠ .field "g".toList := by decide
theorem fld_rb : (PathRest.field "r".toList) ≠ .field "b".toList := by decide
theorem fld_ra : (PathRest.field "r".toList) ≠ .field "a".toList := by decide
theorem fld_gb : (PathRest.field "g".toList) ≠ .field "b".toList := by decide
theorem fld_ga : (PathRest.field "g".toList) ≠ .field "a".toList := by decide
theorem fld_ba : (PathRest.field "b".toList) ≠ .field "a".toList := by decide

theorem setColor_r (v : Vec4 F) (r : PathRest) (a : F) : (setColor v r a).x = if comp "r" r then a else v.x := by
  rw [comp_if]
  unfold setColor
  by_cases hx : r = .field "r".toList
  · simp only [if_pos hx]
  · simp only [if_neg hx]
    split
    · rfl
    · skip
      split
      · rfl
      · skip
        split <;> rfl

theorem setColor_g (v : Vec4 F) (r : PathRest) (a : F) : (setColor v r a).y = if comp "g" r then a else v.y := by
  rw [comp_if]
  unfold setColor
  by_cases hx : r = .field "r".toList
  · have hn : r ≠ .field "g".toList := by rw [hx]; exact fld_rg
    simp only [if_pos hx, if_neg hn]
  · simp only [if_neg hx]
    by_cases hy : r = .field "g".toList
    · simp only [if_pos hy]
    · simp only [if_neg hy]
      split
      · rfl
      · skip
        split <;> rfl

theorem setColor_b (v : Vec4 F) (r : PathRest) (a : F) : (setColor v r a).z = if comp "b" r then a else v.z := by
  rw [comp_if]
  unfold setColor
  by_cases hx : r = .field "r".toList
  · have hn : r ≠ .field "b".toList := by rw [hx]; exact fld_rb
    simp only [if_pos hx, if_neg hn]
  · simp only [if_neg hx]
    by_cases hy : r = .field "g".toList
    · have hn : r ≠ .field "b".toList := by rw [hy]; exact fld_gb
      simp only [if_pos hy, if_neg hn]
    · simp only [if_neg hy]
      by_cases hz : r = .field "b".toList
      · simp only [if_pos hz]
      · simp only [if_neg hz]
        split <;> rfl

theorem setColor_a (v : Vec4 F) (r : PathRest) (a : F) : (setColor v r a).w = if comp "a" r then a else v.w := by
  rw [comp_if]
  unfold setColor
  by_cases hx : r = .field "r".toList
  · have hn : r ≠ .field "a".toList := by rw [hx]; exact fld_ra
    simp only [if_pos hx, if_neg hn]
  · simp only [if_neg hx]
    by_cases hy : r = .field "g".toList
    · have hn : r ≠ .field "a".toList := by rw [hy]; exact fld_ga
      simp only [if_pos hy, if_neg hn]
    · simp only [if_neg hy]
      by_cases hz : r = .field "b".toList
      · have hn : r ≠ .field "a".toList := by rw [hz]; exact fld_ba
        simp only [if_pos hz, if_neg hn]
      · simp only [if_neg hz]
        by_cases hw : r = .field "a".toList
        · simp only [if_pos hw]
        · simp only [if_neg hw]

/-- The values of a transform after modifications. -/
theorem transform_values (mods : List (Modification F)) (j : Int) (t : Transform F) :
    let u := (modsFor mods j).foldl (fun t m => modifyTransform m t) t
    let val : Modification F → F := fun m => m.value.number
    (u.position.x = changed mods j "m_LocalPosition" (comp "x") val t.position.x ∧
      u.position.y = changed mods j "m_LocalPosition" (comp "y") val t.position.y ∧
      u.position.z = changed mods j "m_LocalPosition" (comp "z") val t.position.z) ∧
    (u.rotation.x = changed mods j "m_LocalRotation" (comp "x") val t.rotation.x ∧
      u.rotation.y = changed mods j "m_LocalRotation" (comp "y") val t.rotation.y ∧
      u.rotation.z = changed mods j "m_LocalRotation" (comp "z") val t.rotation.z ∧
      u.rotation.w = changed mods j "m_LocalRotation" (comp "w") val t.rotation.w) ∧
    (u.scale.x = changed mods j "m_LocalScale" (comp "x") val t.scale.x ∧
      u.scale.y = changed mods j "m_LocalScale" (comp "y") val t.scale.y ∧
      u.scale.z = changed mods j "m_LocalScale" (comp "z") val t.scale.z) := by
  have pos : ∀ (g : Vec3 F → F) (c : String), (∀ v r a, g (setVec3 v r a) = if comp c r then a else g v) →
      g ((modsFor mods j).foldl (fun t m => modifyTransform m t) t).position =
        changed mods j "m_LocalPosition" (comp c) (fun m => m.value.number) (g t.position) := by
    intro g c hg
    refine fold_changed (fun t : Transform F => g t.position) modifyTransform _ _ _ ?_ mods j t
    intro m b
    rw [modifyTransform_position, apply_ite g]
    exact ite_field (hg _ _ _)
  have rot : ∀ (g : Vec4 F → F) (c : String), (∀ v r a, g (setVec4 v r a) = if comp c r then a else g v) →
      g ((modsFor mods j).foldl (fun t m => modifyTransform m t) t).rotation =
        changed mods j "m_LocalRotation" (comp c) (fun m => m.value.number) (g t.rotation) := by
    intro g c hg
    refine fold_changed (fun t : Transform F => g t.rotation) modifyTransform _ _ _ ?_ mods j t
    intro m b
    rw [modifyTransform_rotation, apply_ite g]
    exact ite_field (hg _ _ _)
  have sc : ∀ (g : Vec3 F → F) (c : String), (∀ v r a, g (setVec3 v r a) = if comp c r then a else g v) →
      g ((modsFor mods j).foldl (fun t m => modifyTransform m t) t).scale =
        changed mods j "m_LocalScale" (comp c) (fun m => m.value.number) (g t.scale) := by
    intro g c hg
    refine fold_changed (fun t : Transform F => g t.scale) modifyTransform _ _ _ ?_ mods j t
    intro m b
    rw [modifyTransform_scale, apply_ite g]
    exact ite_field (hg _ _ _)
  exact ⟨⟨pos Vec3.x _ setVec3_x, pos Vec3.y _ setVec3_y, pos Vec3.z _ setVec3_z⟩,
    ⟨rot Vec4.x _ setVec4_x, rot Vec4.y _ setVec4_y, rot Vec4.z _ setVec4_z, rot Vec4.w _ setVec4_w⟩,
    sc Vec3.x _ setVec3_x, sc Vec3.y _ setVec3_y, sc Vec3.z _ setVec3_z⟩

/-- The links of a transform are kept. -/
theorem transform_links (ms : List (Modification F)) : ∀ t : Transform F,
    let u := ms.foldl (fun t m => modifyTransform m t) t
    u.gameObject = t.gameObject ∧ u.source = t.source ∧ u.inst = t.inst ∧ u.children = t.children := by
  induction ms with
  | nil => exact fun t => ⟨rfl, rfl, rfl, rfl⟩
  | cons m ms ih =>
    intro t
    have : (modifyTransform m t).gameObject = t.gameObject ∧ (modifyTransform m t).source = t.source ∧
        (modifyTransform m t).inst = t.inst ∧ (modifyTransform m t).children = t.children := by
      unfold modifyTransform
      split
      · exact ⟨rfl, rfl, rfl, rfl⟩
      · split
        · exact ⟨rfl, rfl, rfl, rfl⟩
        · split <;> exact ⟨rfl, rfl, rfl, rfl⟩
    obtain ⟨h1, h2, h3, h4⟩ := this
    obtain ⟨i1, i2, i3, i4⟩ := ih (modifyTransform m t)
    exact ⟨i1.trans h1, i2.trans h2, i3.trans h3, i4.trans h4⟩

/-- The values of a game object after modifications. -/
theorem object_values (trunc : F → Int) (mods : List (Modification F)) (j : Int) (o : GameObject) :
    (modsFor mods j).foldl (fun o m => modifyObject trunc m o) o = { o with
      name := changed mods j "m_Name" (fun _ => true) (fun m => m.value.string) o.name
      active := changed mods j "m_IsActive" (fun _ => true) (fun m => m.value.integer trunc) o.active } := by
  have h1 := fold_changed (F := F) GameObject.name (modifyObject trunc) "m_Name" (fun _ => true) (fun m => m.value.string)
    (by
      intro m b
      unfold modifyObject
      by_cases h : m.name = "m_Name".toList
      · simp only [if_pos h, decide_eq_true h, Bool.and_true, if_true]
      · simp only [if_neg h, decide_eq_false h, Bool.false_and, Bool.false_eq_true, if_false]
        split <;> rfl) mods j o
  have h2 := fold_changed (F := F) GameObject.active (modifyObject trunc) "m_IsActive" (fun _ => true)
    (fun m => m.value.integer trunc)
    (by
      intro m b
      unfold modifyObject
      by_cases h : m.name = "m_Name".toList
      · have h' : m.name ≠ "m_IsActive".toList := by rw [h]; exact name_ne4
        simp only [if_pos h, decide_eq_false h', Bool.false_and, Bool.false_eq_true, if_false]
      · by_cases h' : m.name = "m_IsActive".toList
        · simp only [if_neg h, if_pos h', decide_eq_true h', Bool.and_true, if_true]
        · simp only [if_neg h, if_neg h', decide_eq_false h', Bool.false_and, Bool.false_eq_true, if_false]) mods j o
  have keep : ∀ (ms : List (Modification F)) (o : GameObject),
      (ms.foldl (fun o m => modifyObject trunc m o) o).components = o.components ∧
      (ms.foldl (fun o m => modifyObject trunc m o) o).source = o.source ∧
      (ms.foldl (fun o m => modifyObject trunc m o) o).inst = o.inst := by
    intro ms
    induction ms with
    | nil => exact fun o => ⟨rfl, rfl, rfl⟩
    | cons m ms ih =>
      intro o
      have : (modifyObject trunc m o).components = o.components ∧ (modifyObject trunc m o).source = o.source ∧
          (modifyObject trunc m o).inst = o.inst := by
        unfold modifyObject
        split
        · exact ⟨rfl, rfl, rfl⟩
        · split <;> exact ⟨rfl, rfl, rfl⟩
      obtain ⟨i1, i2, i3⟩ := ih (modifyObject trunc m o)
      exact ⟨i1.trans this.1, i2.trans this.2.1, i3.trans this.2.2⟩
  obtain ⟨k1, k2, k3⟩ := keep (modsFor mods j) o
  generalize (modsFor mods j).foldl (fun o m => modifyObject trunc m o) o = u at *
  cases u
  simp only at h1 h2 k1 k2 k3
  rw [h1, h2, k1, k2, k3]

theorem modifyRenderer_length (trunc : F → Int) (m : Modification F) (r : Int × List (Option Ref)) :
    (modifyRenderer trunc m r).2.length = r.2.length := by
  unfold modifyRenderer
  split
  · rfl
  · split
    · split
      · simp
      · rfl
    · rfl

theorem modifyRenderer_get (trunc : F → Int) (m : Modification F) (r : Int × List (Option Ref)) (i : Nat)
    (hi : i < r.2.length) : (modifyRenderer trunc m r).2[i]? =
      if (decide (m.name = "m_Materials".toList) && decide (m.rest = .data i)) = true then some m.reference else r.2[i]? := by
  unfold modifyRenderer
  by_cases h : m.name = "m_Enabled".toList
  · have h' : m.name ≠ "m_Materials".toList := by rw [h]; exact name_ne5
    simp only [if_pos h, decide_eq_false h', Bool.false_and, Bool.false_eq_true, if_false]
  · by_cases h' : m.name = "m_Materials".toList
    · simp only [if_neg h, if_pos h', decide_eq_true h', Bool.true_and, decide_eq_true_eq]
      cases hr : m.rest with
      | data i' =>
        simp only [PathRest.data.injEq, List.getElem?_set]
        by_cases hii : i' = i
        · subst hii
          simp [hi]
        · simp [hii]
      | _ => simp
    · simp only [if_neg h, if_neg h', decide_eq_false h', Bool.false_and, Bool.false_eq_true, if_false]

/-- Renderers with a number of materials. -/
def modifyRendererN (n : Nat) (trunc : F → Int) (m : Modification F) (r : { r : Int × List (Option Ref) // r.2.length = n }) :
    { r : Int × List (Option Ref) // r.2.length = n } :=
  ⟨modifyRenderer trunc m r.1, (modifyRenderer_length trunc m r.1).trans r.2⟩

theorem modifyRendererN_fold (n : Nat) (trunc : F → Int) (l : List (Modification F)) :
    ∀ r : { r : Int × List (Option Ref) // r.2.length = n },
    (l.foldl (fun r m => modifyRendererN n trunc m r) r).1 = l.foldl (fun r m => modifyRenderer trunc m r) r.1 := by
  induction l with
  | nil => exact fun r => rfl
  | cons m l ih => exact fun r => ih _

/-- The values of a renderer after modifications. -/
theorem renderer_values (trunc : F → Int) (mods : List (Modification F)) (j : Int) (e : Int) (ms : List (Option Ref)) :
    let u := (modsFor mods j).foldl (fun r m => modifyRenderer trunc m r) (e, ms)
    u.1 = changed mods j "m_Enabled" (fun _ => true) (fun m => m.value.integer trunc) e ∧ u.2.length = ms.length ∧
    ∀ i x, ms[i]? = some x → u.2[i]? =
      some (changed mods j "m_Materials" (fun r => decide (r = .data i)) (fun m => m.reference) x) := by
  have h1 := fold_changed (F := F) (Prod.fst : Int × List (Option Ref) → Int) (modifyRenderer trunc) "m_Enabled" (fun _ => true)
    (fun m => m.value.integer trunc)
    (by
      intro m b
      unfold modifyRenderer
      by_cases h : m.name = "m_Enabled".toList
      · simp only [if_pos h, decide_eq_true h, Bool.and_true, if_true]
      · simp only [if_neg h, decide_eq_false h, Bool.false_and, Bool.false_eq_true, if_false]
        split
        · split <;> rfl
        · rfl) mods j (e, ms)
  have e1 := modifyRendererN_fold ms.length trunc (modsFor mods j) ⟨(e, ms), rfl⟩
  refine ⟨h1, ?_, fun i x hx => ?_⟩
  · rw [← e1]
    exact ((modsFor mods j).foldl (fun r m => modifyRendererN ms.length trunc m r) ⟨(e, ms), rfl⟩).2
  · have hi : i < ms.length := (List.getElem?_eq_some_iff.1 hx).1
    have h2 := fold_changed (F := F) (fun r : { r : Int × List (Option Ref) // r.2.length = ms.length } => r.1.2[i]?)
      (modifyRendererN ms.length trunc) "m_Materials" (fun r => decide (r = .data i)) (fun m => some m.reference)
      (fun m b => modifyRenderer_get trunc m b.1 i (by rw [b.2]; exact hi)) mods j ⟨(e, ms), rfl⟩
    rw [e1] at h2
    rw [h2]
    unfold changed
    split
    · rfl
    · exact hx

/-! ### The other components -/

/-- A number of a component: the last modification that names it, else the value in the file. -/
def changedNumber (mods : List (Modification F)) (j : Int) (name : String) (orig : F) : F :=
  changed mods j name (fun _ => true) (fun m => m.value.number) orig

/-- A vector of a component; each coordinate on its own. -/
def changedVector (mods : List (Modification F)) (j : Int) (name : String) (orig : Vec3 F) : Vec3 F :=
  ⟨changed mods j name (comp "x") (fun m => m.value.number) orig.x,
    changed mods j name (comp "y") (fun m => m.value.number) orig.y,
    changed mods j name (comp "z") (fun m => m.value.number) orig.z⟩

/-- A colour of a component; each channel on its own. -/
def changedColor (mods : List (Modification F)) (j : Int) (name : String) (orig : Vec4 F) : Vec4 F :=
  ⟨changed mods j name (comp "r") (fun m => m.value.number) orig.x,
    changed mods j name (comp "g") (fun m => m.value.number) orig.y,
    changed mods j name (comp "b") (fun m => m.value.number) orig.z,
    changed mods j name (comp "a") (fun m => m.value.number) orig.w⟩

/-- A component of an instance: each property has the value of the last modification that names it, else that of the
file. -/
def changedComp (trunc : F → Int) (mods : List (Modification F)) (j : Int) : Comp F → Comp F
  | .filter r => .filter (changed mods j "m_Mesh" (fun _ => true) (fun m => m.reference) r)
  | .mesh r => .mesh (changed mods j "m_Mesh" (fun _ => true) (fun m => m.reference) r)
  | .light t c i r o n => .light (changed mods j "m_Type" (fun _ => true) (fun m => m.value.integer trunc) t)
      (changedColor mods j "m_Color" c) (changedNumber mods j "m_Intensity" i) (changedNumber mods j "m_Range" r)
      (changedNumber mods j "m_SpotAngle" o) (changedNumber mods j "m_InnerSpotAngle" n)
  | .body a d r k => .body (changedNumber mods j "m_Mass" a) (changedNumber mods j "m_Drag" d)
      (changedNumber mods j "m_AngularDrag" r)
      (changed mods j "m_IsKinematic" (fun _ => true) (fun m => m.value.integer trunc) k)
  | .box c s => .box (changedVector mods j "m_Center" c) (changedVector mods j "m_Size" s)
  | .sphere c r => .sphere (changedVector mods j "m_Center" c) (changedNumber mods j "m_Radius" r)
  | .capsule c r l => .capsule (changedVector mods j "m_Center" c) (changedNumber mods j "m_Radius" r)
      (changedNumber mods j "m_Height" l)
  | .unknown => .unknown

section

variable (mods : List (Modification F)) (j : Int)

theorem fold_whole {α β : Type} (get : β → α) (step : Modification F → β → β) (name : String)
    (val : Modification F → α) (hstep : ∀ m b, get (step m b) = if m.name = name.toList then val m else get b) (b : β) :
    get ((modsFor mods j).foldl (fun b m => step m b) b) = changed mods j name (fun _ => true) val (get b) := by
  refine fold_changed get step name _ val ?_ mods j b
  intro m b
  rw [hstep]
  simp

theorem fold_vector {β : Type} (get : β → Vec3 F) (step : Modification F → β → β) (name : String)
    (hstep : ∀ m b, get (step m b) = if m.name = name.toList then setVec3 (get b) m.rest m.value.number else get b) (b : β) :
    get ((modsFor mods j).foldl (fun b m => step m b) b) = changedVector mods j name (get b) := by
  have pos : ∀ (g : Vec3 F → F) (c : String), (∀ v r a, g (setVec3 v r a) = if comp c r then a else g v) →
      g (get ((modsFor mods j).foldl (fun b m => step m b) b)) =
        changed mods j name (comp c) (fun m => m.value.number) (g (get b)) := by
    intro g c hg
    refine fold_changed (fun b => g (get b)) step _ _ _ ?_ mods j b
    intro m b
    rw [hstep, apply_ite g]
    exact ite_field (hg _ _ _)
  unfold changedVector
  rw [← pos Vec3.x _ setVec3_x, ← pos Vec3.y _ setVec3_y, ← pos Vec3.z _ setVec3_z]

theorem fold_color {β : Type} (get : β → Vec4 F) (step : Modification F → β → β) (name : String)
    (hstep : ∀ m b, get (step m b) = if m.name = name.toList then setColor (get b) m.rest m.value.number else get b) (b : β) :
    get ((modsFor mods j).foldl (fun b m => step m b) b) = changedColor mods j name (get b) := by
  have pos : ∀ (g : Vec4 F → F) (c : String), (∀ v r a, g (setColor v r a) = if comp c r then a else g v) →
      g (get ((modsFor mods j).foldl (fun b m => step m b) b)) =
        changed mods j name (comp c) (fun m => m.value.number) (g (get b)) := by
    intro g c hg
    refine fold_changed (fun b => g (get b)) step _ _ _ ?_ mods j b
    intro m b
    rw [hstep, apply_ite g]
    exact ite_field (hg _ _ _)
  unfold changedColor
  rw [← pos Vec4.x _ setColor_r, ← pos Vec4.y _ setColor_g, ← pos Vec4.z _ setColor_b, ← pos Vec4.w _ setColor_a]

/-- One modification of a light, each field on its own. -/
def stepLight (trunc : F → Int) (m : Modification F) (b : Int × Vec4 F × F × F × F × F) : Int × Vec4 F × F × F × F × F :=
  (if m.name = "m_Type".toList then m.value.integer trunc else b.1,
    if m.name = "m_Color".toList then setColor b.2.1 m.rest m.value.number else b.2.1,
    if m.name = "m_Intensity".toList then m.value.number else b.2.2.1,
    if m.name = "m_Range".toList then m.value.number else b.2.2.2.1,
    if m.name = "m_SpotAngle".toList then m.value.number else b.2.2.2.2.1,
    if m.name = "m_InnerSpotAngle".toList then m.value.number else b.2.2.2.2.2)

/-- One modification of a rigid body. -/
def stepBody (trunc : F → Int) (m : Modification F) (b : F × F × F × Int) : F × F × F × Int :=
  (if m.name = "m_Mass".toList then m.value.number else b.1,
    if m.name = "m_Drag".toList then m.value.number else b.2.1,
    if m.name = "m_AngularDrag".toList then m.value.number else b.2.2.1,
    if m.name = "m_IsKinematic".toList then m.value.integer trunc else b.2.2.2)

/-- One modification of a box. -/
def stepBox (m : Modification F) (b : Vec3 F × Vec3 F) : Vec3 F × Vec3 F :=
  (if m.name = "m_Center".toList then setVec3 b.1 m.rest m.value.number else b.1,
    if m.name = "m_Size".toList then setVec3 b.2 m.rest m.value.number else b.2)

/-- One modification of a sphere. -/
def stepSphere (m : Modification F) (b : Vec3 F × F) : Vec3 F × F :=
  (if m.name = "m_Center".toList then setVec3 b.1 m.rest m.value.number else b.1,
    if m.name = "m_Radius".toList then m.value.number else b.2)

/-- One modification of a capsule. -/
def stepCapsule (m : Modification F) (b : Vec3 F × F × F) : Vec3 F × F × F :=
  (if m.name = "m_Center".toList then setVec3 b.1 m.rest m.value.number else b.1,
    if m.name = "m_Radius".toList then m.value.number else b.2.1,
    if m.name = "m_Height".toList then m.value.number else b.2.2)

theorem comp_values (trunc : F → Int) (c : Comp F) :
    (modsFor mods j).foldl (fun c m => modifyComp trunc m c) c = changedComp trunc mods j c := by
  cases c with
  | filter r =>
    rw [comp_fold trunc Comp.filter (fun m r => if m.name = "m_Mesh".toList then m.reference else r)
      (by intro m b; simp only [modifyComp]; split <;> rfl)]
    exact congrArg Comp.filter (fold_whole mods j (fun r => r) (fun m r => if m.name = "m_Mesh".toList then m.reference else r) "m_Mesh"
      (fun m => m.reference) (fun m b => rfl) r)
  | mesh r =>
    rw [comp_fold trunc Comp.mesh (fun m r => if m.name = "m_Mesh".toList then m.reference else r)
      (by intro m b; simp only [modifyComp]; split <;> rfl)]
    exact congrArg Comp.mesh (fold_whole mods j (fun r => r) (fun m r => if m.name = "m_Mesh".toList then m.reference else r) "m_Mesh"
      (fun m => m.reference) (fun m b => rfl) r)
  | light t c i r o n =>
    have hs : ∀ m b, modifyComp trunc m ((fun b : Int × Vec4 F × F × F × F × F =>
        Comp.light b.1 b.2.1 b.2.2.1 b.2.2.2.1 b.2.2.2.2.1 b.2.2.2.2.2) b) =
        (fun b => Comp.light b.1 b.2.1 b.2.2.1 b.2.2.2.1 b.2.2.2.2.1 b.2.2.2.2.2) (stepLight trunc m b) := by
      intro m b
      simp only [modifyComp, stepLight]
      by_cases h1 : m.name = "m_Type".toList
      · rw [h1]; simp (decide := true)
      · by_cases h2 : m.name = "m_Color".toList
        · rw [h2]; simp (decide := true)
        · by_cases h3 : m.name = "m_Intensity".toList
          · rw [h3]; simp (decide := true)
          · by_cases h4 : m.name = "m_Range".toList
            · rw [h4]; simp (decide := true)
            · by_cases h5 : m.name = "m_SpotAngle".toList
              · rw [h5]; simp (decide := true)
              · simp only [if_neg h1, if_neg h2, if_neg h3, if_neg h4, if_neg h5]
                split <;> rfl
    have e := comp_fold trunc _ _ hs (modsFor mods j) (t, c, i, r, o, n)
    simp only at e
    rw [e]
    have w1 := fold_whole mods j Prod.fst (stepLight trunc) "m_Type" (fun m => m.value.integer trunc) (fun _ _ => rfl) (t, c, i, r, o, n)
    have w2 := fold_color mods j (fun b => b.2.1) (stepLight trunc) "m_Color" (fun _ _ => rfl) (t, c, i, r, o, n)
    have w3 := fold_whole mods j (fun b => b.2.2.1) (stepLight trunc) "m_Intensity" (fun m => m.value.number) (fun _ _ => rfl) (t, c, i, r, o, n)
    have w4 := fold_whole mods j (fun b => b.2.2.2.1) (stepLight trunc) "m_Range" (fun m => m.value.number) (fun _ _ => rfl) (t, c, i, r, o, n)
    have w5 := fold_whole mods j (fun b => b.2.2.2.2.1) (stepLight trunc) "m_SpotAngle" (fun m => m.value.number) (fun _ _ => rfl) (t, c, i, r, o, n)
    have w6 := fold_whole mods j (fun b => b.2.2.2.2.2) (stepLight trunc) "m_InnerSpotAngle" (fun m => m.value.number) (fun _ _ => rfl) (t, c, i, r, o, n)
    rw [w1, w2, w3, w4, w5, w6]
    rfl
  | body a d r k =>
    have hs : ∀ m b, modifyComp trunc m ((fun b : F × F × F × Int => Comp.body b.1 b.2.1 b.2.2.1 b.2.2.2) b) =
        (fun b => Comp.body b.1 b.2.1 b.2.2.1 b.2.2.2) (stepBody trunc m b) := by
      intro m b
      simp only [modifyComp, stepBody]
      by_cases h1 : m.name = "m_Mass".toList
      · rw [h1]; simp (decide := true)
      · by_cases h2 : m.name = "m_Drag".toList
        · rw [h2]; simp (decide := true)
        · by_cases h3 : m.name = "m_AngularDrag".toList
          · rw [h3]; simp (decide := true)
          · simp only [if_neg h1, if_neg h2, if_neg h3]
            split <;> rfl
    have e := comp_fold trunc _ _ hs (modsFor mods j) (a, d, r, k)
    simp only at e
    rw [e]
    have w1 := fold_whole mods j Prod.fst (stepBody trunc) "m_Mass" (fun m => m.value.number) (fun _ _ => rfl) (a, d, r, k)
    have w2 := fold_whole mods j (fun b => b.2.1) (stepBody trunc) "m_Drag" (fun m => m.value.number) (fun _ _ => rfl) (a, d, r, k)
    have w3 := fold_whole mods j (fun b => b.2.2.1) (stepBody trunc) "m_AngularDrag" (fun m => m.value.number) (fun _ _ => rfl) (a, d, r, k)
    have w4 := fold_whole mods j (fun b => b.2.2.2) (stepBody trunc) "m_IsKinematic" (fun m => m.value.integer trunc) (fun _ _ => rfl) (a, d, r, k)
    rw [w1, w2, w3, w4]
    rfl
  | box c s =>
    have hs : ∀ m b, modifyComp trunc m ((fun b : Vec3 F × Vec3 F => Comp.box b.1 b.2) b) =
        (fun b => Comp.box b.1 b.2) (stepBox m b) := by
      intro m b
      simp only [modifyComp, stepBox]
      by_cases h1 : m.name = "m_Center".toList
      · rw [h1]; simp (decide := true)
      · simp only [if_neg h1]
        split <;> rfl
    have e := comp_fold trunc _ _ hs (modsFor mods j) (c, s)
    simp only at e
    rw [e]
    have w1 := fold_vector mods j Prod.fst stepBox "m_Center" (fun _ _ => rfl) (c, s)
    have w2 := fold_vector mods j Prod.snd stepBox "m_Size" (fun _ _ => rfl) (c, s)
    rw [w1, w2]
    rfl
  | sphere c r =>
    have hs : ∀ m b, modifyComp trunc m ((fun b : Vec3 F × F => Comp.sphere b.1 b.2) b) =
        (fun b => Comp.sphere b.1 b.2) (stepSphere m b) := by
      intro m b
      simp only [modifyComp, stepSphere]
      by_cases h1 : m.name = "m_Center".toList
      · rw [h1]; simp (decide := true)
      · simp only [if_neg h1]
        split <;> rfl
    have e := comp_fold trunc _ _ hs (modsFor mods j) (c, r)
    simp only at e
    rw [e]
    have w1 := fold_vector mods j Prod.fst stepSphere "m_Center" (fun _ _ => rfl) (c, r)
    have w2 := fold_whole mods j Prod.snd stepSphere "m_Radius" (fun m => m.value.number) (fun _ _ => rfl) (c, r)
    rw [w1, w2]
    rfl
  | capsule c r l =>
    have hs : ∀ m b, modifyComp trunc m ((fun b : Vec3 F × F × F => Comp.capsule b.1 b.2.1 b.2.2) b) =
        (fun b => Comp.capsule b.1 b.2.1 b.2.2) (stepCapsule m b) := by
      intro m b
      simp only [modifyComp, stepCapsule]
      by_cases h1 : m.name = "m_Center".toList
      · rw [h1]; simp (decide := true)
      · by_cases h2 : m.name = "m_Radius".toList
        · rw [h2]; simp (decide := true)
        · simp only [if_neg h1, if_neg h2]
          split <;> rfl
    have e := comp_fold trunc _ _ hs (modsFor mods j) (c, r, l)
    simp only at e
    rw [e]
    have w1 := fold_vector mods j Prod.fst stepCapsule "m_Center" (fun _ _ => rfl) (c, r, l)
    have w2 := fold_whole mods j (fun b => b.2.1) stepCapsule "m_Radius" (fun m => m.value.number) (fun _ _ => rfl) (c, r, l)
    have w3 := fold_whole mods j (fun b => b.2.2) stepCapsule "m_Height" (fun m => m.value.number) (fun _ _ => rfl) (c, r, l)
    rw [w1, w2, w3]
    rfl
  | unknown =>
    exact comp_fold trunc (fun _ : Unit => Comp.unknown) (fun _ b => b) (fun _ _ => rfl) (modsFor mods j) ()

end

end Verif.Unity
