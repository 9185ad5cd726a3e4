import Verif.Unity.Scene
import Mathlib.Tactic.Common

/-! Lemmas on the loading of Unity scenes: which elements each step may change. -/

namespace Verif.Unity

open Verif.Geom

variable {F : Type}

/-- The numbers of scenes grow from an instance to its prefab. -/
structure Heap.Ok (h : Heap F) : Prop where
  fresh : ∀ p : Ptr, h.count ≤ p.1 → h.elem p = none
  prefab : ∀ n id s, h.elem (n, id) = some (.prefab s) → n < s ∧ s < h.count
  roots : ∀ s, ∀ r ∈ h.roots s, s ≤ r.1 ∧ r.1 < h.count

/-- Two elements differ at most in the father and the kept children. -/
def Elem.Like : Elem F → Elem F → Prop
  | .transform t, .transform t' => ∃ f a, t' = { t with father := f, added := a }
  | e, e' => e' = e

theorem Elem.Like.refl (e : Elem F) : e.Like e := by
  cases e <;> simp only [Elem.Like]
  exact ⟨_, _, rfl⟩

theorem Elem.Like.trans {a b c : Elem F} (h : a.Like b) (h' : b.Like c) : a.Like c := by
  cases a <;> cases b <;> simp only [Elem.Like, reduceCtorEq] at h <;> cases c <;>
    simp only [Elem.Like, reduceCtorEq] at h' ⊢
  all_goals first
    | (obtain ⟨f, x, rfl⟩ := h; obtain ⟨f', x', rfl⟩ := h'; exact ⟨_, _, rfl⟩)
    | (rw [h', h])
    | trivial

/-- Two elements differ at most in the kept children. -/
def Elem.Near : Elem F → Elem F → Prop
  | .transform t, .transform t' => ∃ a, t' = { t with added := a }
  | e, e' => e' = e

theorem Elem.Near.refl (e : Elem F) : e.Near e := by
  cases e <;> simp only [Elem.Near]
  exact ⟨_, rfl⟩

theorem Elem.Near.trans {a b c : Elem F} (h : a.Near b) (h' : b.Near c) : a.Near c := by
  cases a <;> cases b <;> simp only [Elem.Near, reduceCtorEq] at h <;> cases c <;>
    simp only [Elem.Near, reduceCtorEq] at h' ⊢
  all_goals first
    | (obtain ⟨x, rfl⟩ := h; obtain ⟨x', rfl⟩ := h'; exact ⟨_, rfl⟩)
    | (rw [h', h])
    | trivial

theorem Elem.Near.like {a b : Elem F} (h : a.Near b) : a.Like b := by
  cases a <;> cases b <;> simp only [Elem.Near, Elem.Like, reduceCtorEq] at h ⊢
  all_goals first
    | (obtain ⟨x, rfl⟩ := h; exact ⟨_, _, rfl⟩)
    | exact h

/-! ### Looking up stays in the scene or goes down -/

theorem getElement_scene (h : Heap F) (ok : h.Ok) (s : Nat) (r : Ref) (inst : Option Ref) (p : Ptr)
    (hp : getElement h s r inst = some p) : s ≤ p.1 ∧ (h.elem p).isSome = true := by
  unfold getElement at hp
  split at hp
  · cases hp
  · split at hp
    · cases inst with
      | none => cases hp
      | some i =>
        simp only at hp
        split at hp
        · rename_i s' hs
          split at hp
          · rename_i he
            cases hp
            exact ⟨Nat.le_of_lt (ok.prefab _ _ _ hs).1, he⟩
          · cases hp
        · cases hp
    · split at hp
      · rename_i he
        cases hp
        exact ⟨Nat.le_refl _, he⟩
      · cases hp

theorem findTransform_scene (h : Heap F) (ok : h.Ok) (s : Nat) (r : Ref) (inst : Option Ref) (p : Ptr)
    (hp : findTransform h s r inst = some p) : s ≤ p.1 ∧ (h.transform p).isSome = true := by
  unfold findTransform at hp
  split at hp
  · rename_i q hq
    split at hp
    · rename_i ht
      cases hp
      exact ⟨(getElement_scene h ok s r inst p hq).1, ht⟩
    · cases hp
  · cases hp

theorem sceneTransform_scene (h : Heap F) (ok : h.Ok) (s : Nat) (r : Ref) (inst : Option Ref) (p : Ptr)
    (hp : sceneTransform h s r inst = some p) : s ≤ p.1 ∧ (h.transform p).isSome = true := by
  unfold sceneTransform at hp
  split at hp
  · rename_i q hq
    have h1 := findTransform_scene h ok s r inst q hq
    split at hp
    · rename_i t ht
      split at hp
      · split at hp
        · split at hp
          · rename_i q' hq'
            cases hp
            have h2 := findTransform_scene h ok _ _ _ _ hq'
            exact ⟨Nat.le_trans h1.1 h2.1, h2.2⟩
          · cases hp
            exact h1
        · cases hp
          exact h1
      · cases hp
        exact h1
    · cases hp
  · cases hp

theorem objectTransform_scene (h : Heap F) (ok : h.Ok) (p q : Ptr) (hq : objectTransform h p = some q) :
    p.1 ≤ q.1 ∧ (h.transform q).isSome = true := by
  unfold objectTransform at hq
  split at hq
  · obtain ⟨c, _, hc⟩ := List.exists_of_findSome?_eq_some hq
    exact findTransform_scene h ok _ _ _ _ hc
  · cases hq

/-! ### Looking up depends only on the links -/

/-- Two elements of the same kind with the same references to others. -/
def Elem.Links : Elem F → Elem F → Prop
  | .object o, .object o' => o'.components = o.components ∧ o'.source = o.source ∧ o'.inst = o.inst
  | .transform t, .transform t' =>
    t'.gameObject = t.gameObject ∧ t'.source = t.source ∧ t'.inst = t.inst ∧ t'.children = t.children
  | .renderer _ _, .renderer _ _ => True
  | .prefab s, .prefab s' => s' = s
  | .other _, .other _ => True
  | _, _ => False

theorem Elem.Links.refl (e : Elem F) : e.Links e := by
  cases e <;> simp [Elem.Links]

theorem Elem.Links.trans {a b c : Elem F} (h : a.Links b) (h' : b.Links c) : a.Links c := by
  cases a <;> cases b <;> simp only [Elem.Links] at h <;> cases c <;> simp only [Elem.Links] at h' ⊢ <;> simp_all

theorem Elem.Like.links {a b : Elem F} (h : a.Like b) : a.Links b := by
  cases a <;> cases b <;> simp only [Elem.Like, Elem.Links, reduceCtorEq] at h ⊢
  all_goals first
    | (obtain ⟨f, x, rfl⟩ := h; exact ⟨rfl, rfl, rfl, rfl⟩)
    | (cases h; trivial)
    | (cases h; exact ⟨rfl, rfl, rfl⟩)

theorem modify_links [Field F] (trunc : F → Int) (m : Modification F) (e : Elem F) : e.Links (modify trunc m e) := by
  cases e with
  | object o =>
    simp only [modify]
    split
    · exact ⟨rfl, rfl, rfl⟩
    · split <;> exact ⟨rfl, rfl, rfl⟩
  | transform t =>
    simp only [modify]
    split
    · exact ⟨rfl, rfl, rfl, rfl⟩
    · split
      · exact ⟨rfl, rfl, rfl, rfl⟩
      · split <;> exact ⟨rfl, rfl, rfl, rfl⟩
  | renderer e ms =>
    simp only [modify]
    split
    · trivial
    · split
      · split <;> trivial
      · trivial
  | prefab s => rfl
  | other => trivial

/-- The elements at `p` have the same links. -/
def LinksAt (h h' : Heap F) (p : Ptr) : Prop :=
  match h.elem p, h'.elem p with
  | some e, some e' => e.Links e'
  | none, none => True
  | _, _ => False

theorem LinksAt.of_eq {h h' : Heap F} {p : Ptr} (e : h'.elem p = h.elem p) : LinksAt h h' p := by
  unfold LinksAt
  rw [e]
  cases h.elem p with
  | none => trivial
  | some e => exact Elem.Links.refl e

theorem LinksAt.of_some {h h' : Heap F} {p : Ptr} {e e' : Elem F} (a : h.elem p = some e) (b : h'.elem p = some e')
    (l : e.Links e') : LinksAt h h' p := by
  unfold LinksAt
  rw [a, b]
  exact l

theorem LinksAt.trans {h h' h'' : Heap F} {p : Ptr} (a : LinksAt h h' p) (b : LinksAt h' h'' p) : LinksAt h h'' p := by
  unfold LinksAt at a b ⊢
  cases e : h.elem p <;> cases e' : h'.elem p <;> cases e'' : h''.elem p <;> rw [e, e'] at a <;> rw [e', e''] at b <;>
    simp only at a b ⊢
  exact a.trans b

/-- From scene `s` on, all elements of the first heap have the same links in the second. -/
structure LinksFrom (h h' : Heap F) (s : Nat) : Prop where
  guid : ∀ i, s ≤ i → i < h.count → h'.guid i = h.guid i
  elem : ∀ p : Ptr, s ≤ p.1 → p.1 < h.count → LinksAt h h' p

theorem LinksFrom.mono {h h' : Heap F} {s s' : Nat} (l : LinksFrom h h' s) (hs : s ≤ s') : LinksFrom h h' s' :=
  ⟨fun i a b => l.guid i (Nat.le_trans hs a) b, fun p a b => l.elem p (Nat.le_trans hs a) b⟩

theorem LinksAt.isSome {h h' : Heap F} {p : Ptr} (l : LinksAt h h' p) : (h'.elem p).isSome = (h.elem p).isSome := by
  unfold LinksAt at l
  cases e : h.elem p <;> cases e' : h'.elem p <;> rw [e, e'] at l <;> simp_all

theorem LinksAt.transform {h h' : Heap F} {p : Ptr} (l : LinksAt h h' p) :
    (h.transform p = none ∧ h'.transform p = none) ∨
    ∃ t t', h.transform p = some t ∧ h'.transform p = some t' ∧
      t'.gameObject = t.gameObject ∧ t'.source = t.source ∧ t'.inst = t.inst ∧ t'.children = t.children := by
  unfold LinksAt at l
  unfold Heap.transform
  cases e : h.elem p <;> cases e' : h'.elem p <;> rw [e, e'] at l <;> simp only at l
  · exact Or.inl ⟨rfl, rfl⟩
  · rename_i a b
    cases a <;> cases b <;> simp only [Elem.Links] at l
    all_goals first
      | exact Or.inl ⟨rfl, rfl⟩
      | exact Or.inr ⟨_, _, rfl, rfl, l⟩

theorem LinksAt.object {h h' : Heap F} {p : Ptr} (l : LinksAt h h' p) :
    (h.object p = none ∧ h'.object p = none) ∨
    ∃ o o', h.object p = some o ∧ h'.object p = some o' ∧
      o'.components = o.components ∧ o'.source = o.source ∧ o'.inst = o.inst := by
  unfold LinksAt at l
  unfold Heap.object
  cases e : h.elem p <;> cases e' : h'.elem p <;> rw [e, e'] at l <;> simp only at l
  · exact Or.inl ⟨rfl, rfl⟩
  · rename_i a b
    cases a <;> cases b <;> simp only [Elem.Links] at l
    all_goals first
      | exact Or.inl ⟨rfl, rfl⟩
      | exact Or.inr ⟨_, _, rfl, rfl, l⟩

theorem LinksAt.isTransform {h h' : Heap F} {p : Ptr} (l : LinksAt h h' p) :
    (h'.transform p).isSome = (h.transform p).isSome := by
  rcases l.transform with ⟨a, b⟩ | ⟨t, t', a, b, _⟩ <;> rw [a, b] <;> rfl

theorem LinksFrom.getElement {h h' : Heap F} {s : Nat} (l : LinksFrom h h' s) (ok : h.Ok) (hs : s < h.count) (r : Ref)
    (inst : Option Ref) : getElement h' s r inst = getElement h s r inst := by
  have here : ∀ i : Int, (h'.elem (s, i)).isSome = (h.elem (s, i)).isSome :=
    fun i => (l.elem (s, i) (Nat.le_refl _) hs).isSome
  unfold Verif.Unity.getElement
  rw [l.guid s (Nat.le_refl _) hs, here]
  cases inst with
  | none => rfl
  | some i =>
    have hi := l.elem (s, i.fileID) (Nat.le_refl _) hs
    unfold LinksAt at hi
    split
    · rfl
    · split
      · cases e : h.elem (s, i.fileID) <;> cases e' : h'.elem (s, i.fileID) <;> rw [e, e'] at hi <;> simp only at hi
        · simp only [e, e']
        · rename_i a b
          simp only [e, e']
          cases a <;> cases b <;> simp only [Elem.Links] at hi <;> try rfl
          subst hi
          rename_i s'
          have hs' := ok.prefab _ _ _ e
          simp only [(l.elem (s', r.fileID) (Nat.le_of_lt hs'.1) hs'.2).isSome]
      · rfl

theorem getElement_count (h : Heap F) (ok : h.Ok) (s : Nat) (r : Ref) (inst : Option Ref) (p : Ptr)
    (hp : getElement h s r inst = some p) : p.1 < h.count := by
  have := (getElement_scene h ok s r inst p hp).2
  by_contra hc
  rw [ok.fresh p (by omega)] at this
  cases this

theorem transform_count (h : Heap F) (ok : h.Ok) (p : Ptr) (ht : (h.transform p).isSome = true) : p.1 < h.count := by
  by_contra hc
  unfold Heap.transform at ht
  rw [ok.fresh p (by omega)] at ht
  cases ht

theorem LinksFrom.findTransform {h h' : Heap F} {s : Nat} (l : LinksFrom h h' s) (ok : h.Ok) (hs : s < h.count) (r : Ref)
    (inst : Option Ref) : findTransform h' s r inst = findTransform h s r inst := by
  unfold Verif.Unity.findTransform
  rw [l.getElement ok hs]
  cases he : Verif.Unity.getElement h s r inst with
  | none => rfl
  | some p =>
    have h1 := getElement_scene h ok s r inst p he
    have h2 := getElement_count h ok s r inst p he
    simp only [(l.elem p h1.1 h2).isTransform]

theorem LinksFrom.sceneTransform {h h' : Heap F} {s : Nat} (l : LinksFrom h h' s) (ok : h.Ok) (hs : s < h.count) (r : Ref)
    (inst : Option Ref) : sceneTransform h' s r inst = sceneTransform h s r inst := by
  unfold Verif.Unity.sceneTransform
  rw [l.findTransform ok hs]
  cases he : Verif.Unity.findTransform h s r inst with
  | none => rfl
  | some p =>
    have h1 := findTransform_scene h ok s r inst p he
    have h2 := transform_count h ok p h1.2
    simp only
    rcases (l.elem p h1.1 h2).transform with ⟨a, b⟩ | ⟨t, t', a, b, e1, e2, e3, _⟩
    · rw [a, b]
    · rw [a, b]
      simp only [e1, e2, e3, (l.mono h1.1).findTransform ok h2]

theorem LinksFrom.objectTransform {h h' : Heap F} {p : Ptr} (l : LinksFrom h h' p.1) (ok : h.Ok) (hs : p.1 < h.count) :
    objectTransform h' p = objectTransform h p := by
  unfold Verif.Unity.objectTransform
  rcases (l.elem p (Nat.le_refl _) hs).object with ⟨a, b⟩ | ⟨o, o', a, b, e1, e2, e3⟩
  · rw [a, b]
  · rw [a, b]
    simp only [e1, e3, l.findTransform ok hs]

end Verif.Unity
