import Verif.Gltf.Extensions
import Mathlib.Data.List.Nodup
import Mathlib.Algebra.Order.Ring.Rat

/-! C175: extensions of exported documents. -/

namespace Verif.Gltf

open Verif.Mqo (Str)

variable {F : Type}

/-- An extension is somewhere in the document. -/
def XDoc.InUse (d : XDoc F) (e : Str) : Prop :=
  (∃ m ∈ d.mats, e ∈ m.exts) ∨ (∃ n ∈ d.nodes, e ∈ n) ∨ e ∈ d.root ∨ (∃ n ∈ d.seen, e ∈ n) ∨ ∃ n ∈ d.unseen, e ∈ n

/-- What the specification of glTF asks for: all extensions of a document are in the list of used ones, which has every name once. -/
structure XDoc.Listed (d : XDoc F) : Prop where
  once : d.used.Nodup
  all : ∀ e, d.InUse e → e ∈ d.used

/-- C175: an exported document lists its extensions once each, and lists no others except that of physics if this option is set. -/
theorem export_listed {L : Type} (order : List Str → List Str) (ho : ∀ l, (order l).Perm l) (lights physics : Bool)
    (mats : List (XMat F)) (os : List (XObject L)) :
    (exportDoc order lights physics mats os).Listed ∧
      ∀ e ∈ (exportDoc order lights physics mats os).used, (exportDoc order lights physics mats os).InUse e ∨ (physics = true ∧ e = physicsName) := by
  refine ⟨⟨?_, ?_⟩, ?_⟩
  · exact (ho _).nodup_iff.2 (List.nodup_dedup _)
  · intro e he
    simp only [exportDoc]
    rw [(ho _).mem_iff, List.mem_dedup, List.mem_append, List.mem_append, List.mem_flatMap]
    rcases he with h | ⟨n, hn, he⟩ | h | ⟨n, hn, -⟩ | ⟨n, hn, -⟩
    · exact Or.inl (Or.inl h)
    · simp only [exportDoc, List.mem_map] at hn
      obtain ⟨o, ho', rfl⟩ := hn
      unfold nodeExts at he
      rw [List.mem_append] at he
      rcases he with he | he
      · left; right
        by_cases hl : (lights && o.light.isSome) = true
        · rw [if_pos hl, List.mem_singleton] at he
          rw [Bool.and_eq_true] at hl
          rw [if_pos, he]
          · simp
          · rw [Bool.and_eq_true, List.any_eq_true]
            exact ⟨hl.1, o, ho', hl.2⟩
        · rw [if_neg hl] at he; simp at he
      · right
        by_cases hp : (physics && o.body) = true
        · rw [if_pos hp, List.mem_singleton] at he
          rw [Bool.and_eq_true] at hp
          rw [if_pos hp.1, he]
          simp
        · rw [if_neg hp] at he; simp at he
    · left; right; exact h
    · simp [exportDoc] at hn
    · simp [exportDoc] at hn
  · intro e he
    simp only [exportDoc] at he
    rw [(ho _).mem_iff, List.mem_dedup, List.mem_append, List.mem_append, List.mem_flatMap] at he
    rcases he with (h | h) | h
    · exact Or.inl (Or.inl h)
    · exact Or.inl (Or.inr (Or.inr (Or.inl h)))
    · right
      cases physics with
      | false => simp at h
      | true => exact ⟨rfl, by simpa using h⟩

/-- C175: the index in the extension of a node is that of the light of its object, and nodes without light have none. -/
theorem light_index {L : Type} (os : List (XObject L)) : ∀ ls : List L,
    (∃ new, (exportLights os ls).2 = ls ++ new ∧ new = os.filterMap (·.light)) ∧
      List.Forall₂ (fun (o : XObject L) (i : Option Nat) => match i with
        | none => o.light = none
        | some k => ∃ l, o.light = some l ∧ (exportLights os ls).2[k]? = some l) os (exportLights os ls).1 := by
  induction os with
  | nil => intro ls; exact ⟨⟨[], by simp [exportLights], rfl⟩, List.Forall₂.nil⟩
  | cons o os ih =>
    intro ls
    cases h : o.light with
    | none =>
      obtain ⟨⟨new, h1, h2⟩, h3⟩ := ih ls
      have e : exportLights (o :: os) ls = (none :: (exportLights os ls).1, (exportLights os ls).2) := by
        rw [exportLights, h]
      rw [e]
      exact ⟨⟨new, h1, by simp [h, h2]⟩, List.Forall₂.cons h h3⟩
    | some l =>
      obtain ⟨⟨new, h1, h2⟩, h3⟩ := ih (ls ++ [l])
      have e : exportLights (o :: os) ls = (some ls.length :: (exportLights os (ls ++ [l])).1, (exportLights os (ls ++ [l])).2) := by
        rw [exportLights, h]
      rw [e]
      refine ⟨⟨l :: new, by simp [h1], by simp [h, h2]⟩, List.Forall₂.cons ⟨l, h, ?_⟩ h3⟩
      simp [h1]

/-- `RemoveExtension` removes an extension from what it looks at and nothing else. -/
theorem removeExtension_inUse (x e : Str) (d : XDoc F) :
    (removeExtension x d).InUse e ↔ (e ≠ x ∧ d.InUse e) ∨ ∃ n ∈ d.unseen, e ∈ n := by
  simp only [XDoc.InUse, removeExtension, List.mem_map, List.mem_filter, decide_eq_true_eq, exists_exists_and_eq_and]
  constructor
  · rintro (⟨m, hm, he, hx⟩ | ⟨n, hn, he, hx⟩ | ⟨he, hx⟩ | ⟨n, hn, he, hx⟩ | h)
    · exact Or.inl ⟨hx, Or.inl ⟨m, hm, he⟩⟩
    · exact Or.inl ⟨hx, Or.inr (Or.inl ⟨n, hn, he⟩)⟩
    · exact Or.inl ⟨hx, Or.inr (Or.inr (Or.inl he))⟩
    · exact Or.inl ⟨hx, Or.inr (Or.inr (Or.inr (Or.inl ⟨n, hn, he⟩)))⟩
    · exact Or.inr h
  · rintro (⟨hx, ⟨m, hm, he⟩ | ⟨n, hn, he⟩ | he | ⟨n, hn, he⟩ | h⟩ | h)
    · exact Or.inl ⟨m, hm, he, hx⟩
    · exact Or.inr (Or.inl ⟨n, hn, he, hx⟩)
    · exact Or.inr (Or.inr (Or.inl ⟨he, hx⟩))
    · exact Or.inr (Or.inr (Or.inr (Or.inl ⟨n, hn, he, hx⟩)))
    · exact Or.inr (Or.inr (Or.inr (Or.inr h)))
    · exact Or.inr (Or.inr (Or.inr (Or.inr h)))

theorem addVRM_inUse (e : Str) (d : XDoc F) : (addVRM d).InUse e ↔ d.InUse e ∨ e = vrmName := by
  unfold addVRM
  split
  · rename_i h
    constructor
    · exact Or.inl
    · rintro (h' | rfl)
      · exact h'
      · exact Or.inr (Or.inr (Or.inl h))
  · simp only [XDoc.InUse, List.mem_append, List.mem_singleton]
    constructor
    · rintro (h | h | (h | h) | h | h)
      · exact Or.inl (Or.inl h)
      · exact Or.inl (Or.inr (Or.inl h))
      · exact Or.inl (Or.inr (Or.inr (Or.inl h)))
      · exact Or.inr h
      · exact Or.inl (Or.inr (Or.inr (Or.inr (Or.inl h))))
      · exact Or.inl (Or.inr (Or.inr (Or.inr (Or.inr h))))
    · rintro ((h | h | h | h | h) | h)
      · exact Or.inl h
      · exact Or.inr (Or.inl h)
      · exact Or.inr (Or.inr (Or.inl (Or.inl h)))
      · exact Or.inr (Or.inr (Or.inr (Or.inl h)))
      · exact Or.inr (Or.inr (Or.inr (Or.inr h)))
      · exact Or.inr (Or.inr (Or.inl (Or.inr h)))

/-- The list after the VRM extension. -/
theorem addVRM_listed (d : XDoc F) (h : d.Listed) : (addVRM d).Listed := by
  have hall : ∀ e, (addVRM d).InUse e → e ∈ (addVRM d).used := by
    intro e he
    rw [addVRM_inUse] at he
    have h1 : d.used ⊆ (addVRM d).used := by
      unfold addVRM
      split
      · exact fun _ h => h
      · intro x hx
        simp only
        split
        · exact hx
        · simp [hx]
    rcases he with he | rfl
    · exact h1 (h.all e he)
    · unfold addVRM
      split
      · rename_i hr
        exact h.all _ (Or.inr (Or.inr (Or.inl hr)))
      · simp only
        split
        · assumption
        · simp
  refine ⟨?_, hall⟩
  unfold addVRM
  split
  · exact h.once
  · simp only
    split
    · exact h.once
    · rename_i hn
      exact List.nodup_append.2 ⟨h.once, by simp, by
        intro a ha b hb
        rw [List.mem_singleton] at hb
        rintro rfl
        exact hn (hb ▸ ha)⟩

section

variable [Zero F] [LT F] [DecidableLT F]

theorem applySettings_used (s : Str → Option (Setting F)) (ms : List (XMat F)) : ∀ used : List Str, used.Nodup →
    (applySettings s ms used).2.Nodup ∧ used ⊆ (applySettings s ms used).2 ∧
      (∀ e ∈ (applySettings s ms used).2, e ∈ used ∨ e = unlitExt) ∧
      ∀ m ∈ (applySettings s ms used).1, ∀ e ∈ m.exts, (∃ m' ∈ ms, e ∈ m'.exts) ∨ (e = unlitExt ∧ unlitExt ∈ (applySettings s ms used).2) := by
  induction ms with
  | nil => intro used h; exact ⟨h, fun _ h => h, fun e h => Or.inl h, by simp [applySettings]⟩
  | cons m ms ih =>
    intro used h
    cases hs : settingOf s m.name with
    | none =>
      have e : applySettings s (m :: ms) used = (m :: (applySettings s ms used).1, (applySettings s ms used).2) := by
        rw [applySettings, hs]
      rw [e]
      obtain ⟨h1, h2, h3, h4⟩ := ih used h
      refine ⟨h1, h2, h3, ?_⟩
      intro m' hm' x hx
      rw [List.mem_cons] at hm'
      rcases hm' with rfl | hm'
      · exact Or.inl ⟨_, by simp, hx⟩
      · rcases h4 m' hm' x hx with ⟨m'', h5, h6⟩ | h5
        · exact Or.inl ⟨m'', by simp [h5], h6⟩
        · exact Or.inr h5
    | some st =>
      obtain ⟨u, hu⟩ : ∃ u, u = (if st.forceUnlit then (if unlitExt ∈ used then used else used ++ [unlitExt]) else used) := ⟨_, rfl⟩
      have e : applySettings s (m :: ms) used = (applySetting st m :: (applySettings s ms u).1, (applySettings s ms u).2) := by
        rw [applySettings, hs, hu]
      have hun : u.Nodup ∧ used ⊆ u ∧ (∀ x ∈ u, x ∈ used ∨ x = unlitExt) ∧ (st.forceUnlit = true → unlitExt ∈ u) := by
        rw [hu]
        split
        · split
          · rename_i hin
            exact ⟨h, fun _ h => h, fun _ h => Or.inl h, fun _ => hin⟩
          · rename_i hn
            refine ⟨List.nodup_append.2 ⟨h, by simp, ?_⟩, by simp, by simp, by simp⟩
            intro a ha b hb
            rw [List.mem_singleton] at hb
            rintro rfl
            exact hn (hb ▸ ha)
        · rename_i hf
          exact ⟨h, fun _ h => h, fun _ h => Or.inl h, fun hc => absurd hc hf⟩
      obtain ⟨h1, h2, h3, h4⟩ := ih u hun.1
      rw [e]
      refine ⟨h1, fun _ hx => h2 (hun.2.1 hx), ?_, ?_⟩
      · intro x hx
        rcases h3 x hx with h5 | h5
        · exact hun.2.2.1 x h5
        · exact Or.inr h5
      · intro m' hm' x hx
        rw [List.mem_cons] at hm'
        rcases hm' with rfl | hm'
        · simp only [applySetting] at hx
          split at hx
          · rename_i hf
            rw [List.mem_singleton] at hx
            exact Or.inr ⟨hx, h2 (hun.2.2.2 hf)⟩
          · exact Or.inl ⟨m, by simp, hx⟩
        · rcases h4 m' hm' x hx with ⟨m'', h5, h6⟩ | h5
          · exact Or.inl ⟨m'', by simp [h5], h6⟩
          · exact Or.inr h5

/-- C175: a document that lists its extensions also does so as VRM; the VRM extension is there and listed. -/
theorem vrm_listed (s : Str → Option (Setting F)) (d : XDoc F) (h : d.Listed) :
    (vrmDoc s d).Listed ∧ vrmName ∈ (vrmDoc s d).root ∧ vrmName ∈ (vrmDoc s d).used := by
  have h1 : (removeExtension physicsName d).Listed := by
    refine ⟨h.once, fun e he => ?_⟩
    rw [removeExtension_inUse] at he
    rcases he with he | he
    · exact h.all e he.2
    · exact h.all e (Or.inr (Or.inr (Or.inr (Or.inr he))))
  have h2 := addVRM_listed _ h1
  obtain ⟨d', hd⟩ : ∃ d', d' = addVRM (removeExtension physicsName d) := ⟨_, rfl⟩
  rw [← hd] at h2
  have e : vrmDoc s d = { d' with mats := (applySettings s d'.mats d'.used).1, used := (applySettings s d'.mats d'.used).2 } := by
    rw [hd]; rfl
  obtain ⟨k1, k2, -, k4⟩ := applySettings_used s d'.mats d'.used h2.once
  have hv : vrmName ∈ d'.root := by
    rw [hd]
    unfold addVRM
    split
    · assumption
    · simp
  have hall : ∀ x, (vrmDoc s d).InUse x → x ∈ (vrmDoc s d).used := by
    intro x hx
    rw [e] at hx ⊢
    rcases hx with ⟨m, hm, hx⟩ | hx
    · rcases k4 m hm x hx with h5 | h5
      · exact k2 (h2.all x (Or.inl h5))
      · rw [h5.1]; exact h5.2
    · exact k2 (h2.all x (Or.inr hx))
  refine ⟨⟨by rw [e]; exact k1, hall⟩, by rw [e]; exact hv, hall _ (Or.inr (Or.inr (Or.inl ?_)))⟩
  rw [e]
  exact hv

/-- C175: bodies of physics are not in a VRM file (objects of kinds that are not looked at never have them). -/
theorem vrm_physics_gone (s : Str → Option (Setting F)) (d : XDoc F) (hu : ∀ n ∈ d.unseen, physicsName ∉ n) :
    ¬ (vrmDoc s d).InUse physicsName := by
  intro h
  obtain ⟨d', hd⟩ : ∃ d', d' = addVRM (removeExtension physicsName d) := ⟨_, rfl⟩
  have e : vrmDoc s d = { d' with mats := (applySettings s d'.mats d'.used).1, used := (applySettings s d'.mats d'.used).2 } := by
    rw [hd]; rfl
  have hn : ¬ d'.InUse physicsName := by
    rw [hd, addVRM_inUse, removeExtension_inUse]
    rintro ((h | ⟨n, hn, he⟩) | h)
    · exact h.1 rfl
    · exact hu n hn he
    · exact absurd h (by decide)
  rw [e] at h
  rcases h with ⟨m, hm, hx⟩ | h
  · have key : ∀ (ms : List (XMat F)) (used : List Str), ∀ m ∈ (applySettings s ms used).1, ∀ x ∈ m.exts, (∃ m' ∈ ms, x ∈ m'.exts) ∨ x = unlitExt := by
      intro ms
      induction ms with
      | nil => intro used; simp [applySettings]
      | cons a ms ih =>
        intro used m hm x hx
        rw [applySettings] at hm
        split at hm
        · rw [List.mem_cons] at hm
          rcases hm with rfl | hm
          · exact Or.inl ⟨_, by simp, hx⟩
          · rcases ih _ m hm x hx with ⟨m'', h5, h6⟩ | h5
            · exact Or.inl ⟨m'', by simp [h5], h6⟩
            · exact Or.inr h5
        · rw [List.mem_cons] at hm
          rcases hm with rfl | hm
          · simp only [applySetting] at hx
            split at hx
            · exact Or.inr (by simpa using hx)
            · exact Or.inl ⟨a, by simp, hx⟩
          · rcases ih _ m hm x hx with ⟨m'', h5, h6⟩ | h5
            · exact Or.inl ⟨m'', by simp [h5], h6⟩
            · exact Or.inr h5
    rcases key _ _ m hm _ hx with h5 | h5
    · exact hn (Or.inl h5)
    · exact absurd h5 (by decide)
  · exact hn (Or.inr h)

/-- C175: a material follows the setting with its name, or else that for all (`*`): what the setting does not say stays. -/
theorem settings_exact (s : Str → Option (Setting F)) (ms : List (XMat F)) : ∀ used : List Str,
    List.Forall₂ (fun (m m' : XMat F) =>
      m'.name = m.name ∧
      (s m.name = none → s "*".toList = none → m' = m) ∧
      ∀ x, (s m.name = some x ∨ (s m.name = none ∧ s "*".toList = some x)) →
        (x.forceUnlit = false → m'.exts = m.exts) ∧ (x.forceUnlit = true → m'.exts = [unlitExt]) ∧
        (x.alphaMode = "blend".toList → m'.mode = .blend) ∧ (x.alphaMode = "mask".toList → m'.mode = .mask) ∧
        (x.alphaMode = "opaque".toList → m'.mode = .opaqueMode) ∧ (x.alphaMode = [] → m'.mode = m.mode) ∧
        (0 < x.alpha → m.alpha.isSome = true → m'.alpha = some x.alpha) ∧ (m.alpha = none → m'.alpha = none) ∧
        (¬ 0 < x.alpha → m'.alpha = m.alpha)) ms (applySettings s ms used).1 := by
  induction ms with
  | nil => intro used; exact List.Forall₂.nil
  | cons m ms ih =>
    intro used
    rw [applySettings]
    cases hs : settingOf s m.name with
    | none =>
      refine List.Forall₂.cons ⟨rfl, fun _ _ => rfl, ?_⟩ (ih used)
      intro x hx
      unfold settingOf at hs
      rcases hx with hx | ⟨h1, h2⟩
      · rw [hx] at hs; cases hs
      · rw [h1] at hs; simp only at hs; rw [h2] at hs; cases hs
    | some st =>
      refine List.Forall₂.cons ⟨rfl, ?_, ?_⟩ (ih _)
      · intro h1 h2
        unfold settingOf at hs
        rw [h1] at hs; simp only at hs; rw [h2] at hs; cases hs
      · intro x hx
        have : st = x := by
          unfold settingOf at hs
          rcases hx with hx | ⟨h1, h2⟩
          · rw [hx] at hs; exact (Option.some.inj hs).symm
          · rw [h1] at hs; simp only at hs; rw [h2] at hs; exact (Option.some.inj hs).symm
        subst this
        have hm : (applySetting st m).mode = if st.alphaMode = "blend".toList then .blend
            else if st.alphaMode = "mask".toList then .mask
            else if st.alphaMode = "opaque".toList then .opaqueMode
            else m.mode := rfl
        have hal : (applySetting st m).alpha = if 0 < st.alpha then m.alpha.map (fun _ => st.alpha) else m.alpha := rfl
        refine ⟨fun h => by simp [applySetting, h], fun h => by simp [applySetting, h], fun h => ?_, fun h => ?_,
          fun h => ?_, fun h => ?_, fun h ha => ?_, fun h => ?_, fun h => ?_⟩
        · rw [hm, if_pos h]
        · rw [hm, if_neg (by rw [h]; decide), if_pos h]
        · rw [hm, if_neg (by rw [h]; decide), if_neg (by rw [h]; decide), if_pos h]
        · rw [hm, if_neg (by rw [h]; decide), if_neg (by rw [h]; decide), if_neg (by rw [h]; decide)]
        · obtain ⟨a, ha⟩ := Option.isSome_iff_exists.1 ha
          rw [hal, if_pos h, ha, Option.map_some]
        · rw [hal, h, Option.map_none, ite_self]
        · rw [hal, if_neg h]

/-- C175, false: a VRM file that is exported with physics still lists the extension of physics, which it does not have any more. -/
theorem physics_listed_false {L : Type} (order : List Str → List Str) (ho : ∀ l, (order l).Perm l) (lights : Bool) (s : Str → Option (Setting F))
    (mats : List (XMat F)) (os : List (XObject L)) :
    physicsName ∈ (vrmDoc s (exportDoc order lights true mats os)).used ∧
      ¬ (vrmDoc s (exportDoc order lights true mats os)).InUse physicsName := by
  refine ⟨?_, vrm_physics_gone s _ (by simp [exportDoc])⟩
  have hl := (export_listed order ho lights true mats os).1
  have h0 : physicsName ∈ (exportDoc order lights true mats os).used := by
    simp only [exportDoc]
    rw [(ho _).mem_iff, List.mem_dedup]
    simp
  obtain ⟨d', hd⟩ : ∃ d', d' = addVRM (removeExtension physicsName (exportDoc order lights true mats os)) := ⟨_, rfl⟩
  have e : vrmDoc s (exportDoc order lights true mats os) =
      { d' with mats := (applySettings s d'.mats d'.used).1, used := (applySettings s d'.mats d'.used).2 } := by
    rw [hd]; rfl
  have hu : physicsName ∈ d'.used := by
    rw [hd]
    unfold addVRM
    split
    · exact h0
    · simp only
      split
      · exact h0
      · exact List.mem_append_left _ h0
  have hn : d'.used.Nodup := by
    rw [hd]
    refine (addVRM_listed (removeExtension physicsName (exportDoc order lights true mats os)) ⟨hl.once, fun x hx => ?_⟩).once
    rw [removeExtension_inUse] at hx
    rcases hx with hx | hx
    · exact hl.all x hx.2
    · exact hl.all x (Or.inr (Or.inr (Or.inr (Or.inr hx))))
  rw [e]
  exact (applySettings_used s d'.mats d'.used hn).2.1 hu

omit [Zero F] [LT F] [DecidableLT F] in
/-- C175: a new VRM document has a property for each material, with its name. -/
theorem properties_partial (d : XDoc F) : materialProperties [] d = d.mats.map (·.name) := by
  unfold materialProperties
  split
  · rfl
  · rename_i h
    have : d.mats = [] := by
      rw [← List.length_eq_zero_iff]
      simp only [ne_eq, Decidable.not_not] at h
      exact h.symm
    rw [this]; rfl

omit [Zero F] [LT F] [DecidableLT F] in
/-- C175, false: old properties stay whatever their names are, if there are as many as materials. -/
theorem properties_false (d : XDoc F) (old : List Str) (h : old.length = d.mats.length) : materialProperties old d = old := by
  simp [materialProperties, h]

end

/-! Examples. -/

def exMats : List (XMat ℚ) :=
  [⟨"skin".toList, [unlitExt], .opaqueMode, some 1⟩, ⟨"glass".toList, ["KHR_materials_ior".toList], .blend, some (1 / 2)⟩]
def exObjects : List (XObject String) := [⟨none, false⟩, ⟨some "sun", true⟩, ⟨some "lamp", false⟩]
def exSettings : Str → Option (Setting ℚ) := fun n =>
  if n = "glass".toList then some ⟨true, "mask".toList, 3 / 4⟩ else if n = "*".toList then some ⟨false, [], 0⟩ else none

example : exportLights exObjects [] = ([none, some 0, some 1], ["sun", "lamp"]) := by decide +kernel

example : (exportDoc id true true exMats exObjects).used = [unlitExt, "KHR_materials_ior".toList, lightsName, physicsName] ∧
    (exportDoc id true true exMats exObjects).nodes = [[], [lightsName, physicsName], [lightsName]] := by decide +kernel

example : vrmDoc exSettings (exportDoc id true true exMats exObjects) =
    { mats := [⟨"skin".toList, [unlitExt], .opaqueMode, some 1⟩, ⟨"glass".toList, [unlitExt], .mask, some (3 / 4)⟩]
      nodes := [[], [lightsName], [lightsName]]
      root := [lightsName, vrmName]
      seen := []
      unseen := []
      used := [unlitExt, "KHR_materials_ior".toList, lightsName, physicsName, vrmName] } := by decide +kernel

example : (exportDoc id true true exMats exObjects).Listed := (export_listed id (fun l => List.Perm.refl l) _ _ _ _).1

end Verif.Gltf
