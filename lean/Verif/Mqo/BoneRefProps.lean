import Verif.Mqo.BoneRef

/-! C203: the children of bones in the old format. -/

namespace Verif.Mqo

variable {R : Type}

/-- The places (from 1, the first bone of the list has place `i + 1`) of the bones with parent `p`. -/
def childPlaces (i : Nat) (bones : List (OldBone R)) (p : Int) : List Int :=
  ((bones.zipIdx i).filter fun x => x.1.parent = p).map fun x => (x.2 : Int) + 1

theorem linkRefs_spec (bones : List (OldBone R)) : ∀ (i : Nat) (acc : List (OldBone R)),
    ((∃ b ∈ bones, (acc.length : Int) < b.parent) → linkRefs i bones acc = none) ∧
    ((∀ b ∈ bones, b.parent ≤ acc.length) → ∃ r, linkRefs i bones acc = some r ∧ r.length = acc.length ∧
      ∀ (k : Nat) a, acc[k]? = some a → r[k]? = some { a with children := a.children ++ childPlaces i bones (k + 1) }) := by
  induction bones with
  | nil =>
    intro i acc
    refine ⟨by simp, fun _ => ⟨acc, rfl, rfl, ?_⟩⟩
    intro k a ha
    simp [childPlaces, ha]
  | cons b bs ih =>
    intro i acc
    have hc : ∀ p : Int, childPlaces i (b :: bs) p = (if b.parent = p then [(i : Int) + 1] else []) ++ childPlaces (i + 1) bs p := by
      intro p
      unfold childPlaces
      rw [List.zipIdx_cons, List.filter_cons]
      by_cases h : b.parent = p <;> simp [h]
    simp only [linkRefs]
    by_cases hpos : 0 < b.parent
    · rw [if_pos hpos]
      by_cases hlt : (b.parent - 1).toNat < acc.length
      · rw [if_pos hlt]
        obtain ⟨h1, h2⟩ := ih (i + 1) (acc.modify (b.parent - 1).toNat fun p => { p with children := p.children ++ [(i : Int) + 1] })
        rw [List.length_modify] at h1 h2
        constructor
        · rintro ⟨x, hx, hxp⟩
          rcases List.mem_cons.1 hx with rfl | hx
          · omega
          · exact h1 ⟨x, hx, hxp⟩
        · intro hall
          obtain ⟨r, hr, hl, hg⟩ := h2 fun x hx => hall x (List.mem_cons_of_mem _ hx)
          refine ⟨r, hr, hl, ?_⟩
          intro k a ha
          rw [hc]
          by_cases hk : (b.parent - 1).toNat = k
          · have := hg k { a with children := a.children ++ [(i : Int) + 1] } (by rw [List.getElem?_modify, ha]; simp only [hk, if_true, Option.map_eq_map, Option.map_some])
            rw [this, if_pos (by omega)]
            simp
          · have := hg k a (by rw [List.getElem?_modify, ha]; simp only [hk, if_false, Option.map_eq_map, Option.map_some])
            rw [this, if_neg (by omega)]
            simp
      · rw [if_neg hlt]
        refine ⟨fun _ => rfl, fun hall => ?_⟩
        have := hall b List.mem_cons_self
        omega
    · rw [if_neg hpos]
      obtain ⟨h1, h2⟩ := ih (i + 1) acc
      constructor
      · rintro ⟨x, hx, hxp⟩
        rcases List.mem_cons.1 hx with rfl | hx
        · omega
        · exact h1 ⟨x, hx, hxp⟩
      · intro hall
        obtain ⟨r, hr, hl, hg⟩ := h2 fun x hx => hall x (List.mem_cons_of_mem _ hx)
        refine ⟨r, hr, hl, ?_⟩
        intro k a ha
        rw [hg k a ha, hc, if_neg (by omega)]
        simp

/-- C203. `UpdateBoneRef` panics exactly if some parent is greater than the number of bones. Otherwise it changes only the lists of
children. If the bones are numbered from 1 in their order, the children of a bone are then the ids of the bones that have it as
parent, each once and in increasing order, whatever was in the lists before. -/
theorem bone_refs_partial (bones : List (OldBone R)) :
    (updateBoneRef bones = none ↔ ∃ b ∈ bones, (bones.length : Int) < b.parent) ∧
    ∀ r, updateBoneRef bones = some r →
      r.map (fun b => (b.id, b.parent, b.rest)) = bones.map (fun b => (b.id, b.parent, b.rest)) ∧
      ((∀ (i : Nat) b, bones[i]? = some b → b.id = i + 1) →
        ∀ p ∈ r, p.children.Pairwise (· < ·) ∧ ∀ c, c ∈ p.children ↔ ∃ b ∈ bones, b.id = c ∧ b.parent = p.id) := by
  obtain ⟨h1, h2⟩ := linkRefs_spec bones 0 (bones.map fun b => { b with children := [] })
  rw [List.length_map] at h1 h2
  by_cases hex : ∃ b ∈ bones, (bones.length : Int) < b.parent
  · have hn : updateBoneRef bones = none := h1 hex
    refine ⟨⟨fun _ => hex, fun _ => hn⟩, ?_⟩
    intro r hr
    rw [hn] at hr
    simp at hr
  · obtain ⟨r, hr, hl, hg⟩ := h2 (by
      intro b hb
      by_contra hlt
      exact hex ⟨b, hb, by omega⟩)
    have hr' : updateBoneRef bones = some r := hr
    refine ⟨⟨fun h => by rw [hr'] at h; simp at h, fun h => absurd h hex⟩, ?_⟩
    intro r2 hr2
    rw [hr', Option.some.injEq] at hr2
    subst hr2
    have hat : ∀ (k : Nat) b, bones[k]? = some b → r[k]? = some { b with children := childPlaces 0 bones (k + 1) } := by
      intro k b hb
      have := hg k { b with children := [] } (by rw [List.getElem?_map, hb]; rfl)
      rw [this]
      simp
    constructor
    · apply List.ext_getElem?
      intro k
      rw [List.getElem?_map, List.getElem?_map]
      cases hb : bones[k]? with
      | none =>
        rw [List.getElem?_eq_none_iff, ← hl] at hb
        rw [List.getElem?_eq_none hb]
      | some b => rw [hat k b hb]; rfl
    · intro hid p hp
      obtain ⟨k, hk⟩ := List.getElem?_of_mem hp
      have hlt : k < bones.length := hl ▸ (List.getElem?_eq_some_iff.1 hk).1
      rw [hat k _ (List.getElem?_eq_getElem hlt), Option.some.injEq] at hk
      subst hk
      have hpid := hid k _ (List.getElem?_eq_getElem hlt)
      constructor
      · show (childPlaces 0 bones _).Pairwise _
        unfold childPlaces
        rw [List.pairwise_map]
        refine List.Pairwise.filter _ ?_
        rw [List.pairwise_iff_getElem]
        intro a b ha hb hab
        simp only [List.getElem_zipIdx]
        omega
      · intro c
        show c ∈ childPlaces 0 bones _ ↔ ∃ b ∈ bones, b.id = c ∧ b.parent = bones[k].id
        rw [hpid]
        unfold childPlaces
        simp only [List.mem_map, List.mem_filter, decide_eq_true_eq, Prod.exists]
        constructor
        · rintro ⟨b, j, ⟨hm, hpar⟩, rfl⟩
          have hj := List.mem_zipIdx_iff_getElem?.1 hm
          exact ⟨b, List.mem_of_getElem? hj, hid j b hj, hpar⟩
        · rintro ⟨b, hb, rfl, hpar⟩
          obtain ⟨j, hj⟩ := List.getElem?_of_mem hb
          exact ⟨b, j, ⟨List.mem_zipIdx_iff_getElem?.2 hj, hpar⟩, (hid j b hj).symm⟩

/-- Three bones, two of them below the first, with wrong lists before. -/
def refBones : List (OldBone Nat) := [⟨1, 0, [7], 10⟩, ⟨2, 1, [], 11⟩, ⟨3, 1, [1], 12⟩]

example : (∀ (i : Nat) b, refBones[i]? = some b → b.id = i + 1) ∧
    (updateBoneRef refBones).map (·.map (·.children)) = some [[2, 3], [], []] := by
  refine ⟨?_, by decide⟩
  intro i b h
  match i, h with
  | 0, h => simp [refBones] at h; subst h; rfl
  | 1, h => simp [refBones] at h; subst h; rfl
  | 2, h => simp [refBones] at h; subst h; rfl
  | n + 3, h => simp [refBones] at h

example : ∃ b ∈ [(⟨1, 5, [], 0⟩ : OldBone Nat)], (([(⟨1, 5, [], 0⟩ : OldBone Nat)].length : Int)) < b.parent := by decide

/-- C203 is false of bones that are not numbered in their order: parents and children are taken by place, not by id. With the ids
in reverse order, the parent with id 1 gets no child, and is itself listed as a child of the bone with id 2. -/
theorem bone_refs_false (a b : R) : ∃ bones r : List (OldBone R), (bones.map (·.id)).Nodup ∧
    (∀ x ∈ bones, 0 < x.parent → x.parent ∈ bones.map (·.id)) ∧ bones = [⟨2, 1, [], a⟩, ⟨1, 0, [], b⟩] ∧
    updateBoneRef bones = some r ∧ r = [⟨2, 1, [1], a⟩, ⟨1, 0, [], b⟩] ∧
    ¬ ∀ p ∈ r, ∀ c, c ∈ p.children ↔ ∃ b ∈ bones, b.id = c ∧ b.parent = p.id := by
  refine ⟨_, _, ?_, ?_, rfl, by simp [updateBoneRef, linkRefs], rfl, ?_⟩
  · simp
  · simp
  · intro h
    have := (h ⟨1, 0, [], b⟩ (by simp) 2).2 ⟨⟨2, 1, [], a⟩, by simp, rfl, rfl⟩
    simp at this

end Verif.Mqo
