import Verif.Mqo.DocTransformProps
import Verif.Gltf.BoneAnimProps

/-! The options that scale and turn a document (C156), and what the half turn does to animations added afterwards (C124). -/

namespace Verif.Mqo

open Verif.Geom Verif.Gltf Real

/-- C156. With the options for scaling, every vertex and every bone is at its place times the factors; with the option for
the half turn every bone is marked as turned by a half about the y axis (for animations added later), without it the
marks stay; materials, names, ids and parents stay. -/
theorem scale_option (v : Vec3 ℝ) (turn : Bool) (doc doc' : Document ℝ) (h : scaleDocument v turn doc = some doc') :
    doc'.materials = doc.materials ∧
    List.Forall₂ (fun o o' : Object ℝ => o'.name = o.name ∧ o'.vertexes =
      o.vertexes.map fun p => (⟨v.x * p.x, v.y * p.y, v.z * p.z⟩ : Vec3 ℝ)) doc.objects doc'.objects ∧
    ∀ p, doc.bonePlugin = some p → ∃ p', doc'.bonePlugin = some p' ∧ List.Forall₂ (fun b b' : Bone ℝ =>
      b'.pos = ⟨v.x * b.pos.x, v.y * b.pos.y, v.z * b.pos.z⟩ ∧ b'.id = b.id ∧ b'.parent = b.parent ∧ b'.name = b.name ∧
      b'.rotationOffset.x = b.rotationOffset.x ∧ b'.rotationOffset.z = b.rotationOffset.z ∧
      b'.rotationOffset.y = if turn then π else b.rotationOffset.y) p.bones p'.bones := by
  obtain ⟨d, hd, rfl⟩ := Option.map_eq_some_iff.1 h
  have happ : ∀ p : Vec3 ℝ, (Mat4.scaling v.x v.y v.z).applyTo p = ⟨v.x * p.x, v.y * p.y, v.z * p.z⟩ := by
    intro p
    ext <;> simp [Mat4.applyTo, Mat4.scaling, mul_comm]
  obtain ⟨h1, -, h3, -, -⟩ := transform_points _ _ _ hd
  obtain ⟨os, hos, rfl⟩ := Option.map_eq_some_iff.1 hd
  have ho : List.Forall₂ (fun o o' : Object ℝ => o'.name = o.name ∧ o'.vertexes =
      o.vertexes.map fun p => (⟨v.x * p.x, v.y * p.y, v.z * p.z⟩ : Vec3 ℝ)) doc.objects os := by
    refine h3.imp ?_
    rintro o o' ⟨e1, e2, -⟩
    refine ⟨e2, ?_⟩
    rw [e1]
    exact List.map_congr_left fun p _ => happ p
  cases turn with
  | false =>
    refine ⟨rfl, ho, ?_⟩
    intro p hp
    refine ⟨p.applyTransform (Mat4.scaling v.x v.y v.z), ?_, ?_⟩
    · simp only [Bool.false_eq_true, if_false, hp, Option.map_some]
    rw [BonePlugin.applyTransform, List.forall₂_map_right_iff]
    exact List.forall₂_same.2 fun b _ => ⟨happ b.pos, rfl, rfl, rfl, rfl, rfl, rfl⟩
  | true =>
    refine ⟨rfl, ho, ?_⟩
    intro p hp
    simp only [if_true, hp, Option.map_some]
    refine ⟨_, rfl, ?_⟩
    rw [BonePlugin.applyTransform, List.map_map, List.forall₂_map_right_iff]
    exact List.forall₂_same.2 fun b _ => ⟨happ b.pos, rfl, rfl, rfl, rfl, rfl, rfl⟩

/-- A half turn about the y axis. -/
def turnedHalf (p : Vec3 ℝ) : Vec3 ℝ := ⟨-p.x, p.y, -p.z⟩

/-- The numbers of the animation with the real functions. -/
noncomputable def realNum (move milli : ℝ) : AnimNum ℝ := ⟨Real.cos, Real.sin, fun k => k / 30, (· / 2), move, milli⟩

/-- C156, C124. An animation added to a model that was turned with the option moves the turned model as the animation moves
the model that was not turned: rotations do to a turned vector what they did to the vector, and translations are turned. -/
theorem turned_animation (move milli : ℝ) (b b' : Bone ℝ) (off q : Vec4 ℝ) (p w : Vec3 ℝ)
    (hb : b.rotationOffset = ⟨0, 0, 0⟩) (hb' : b'.rotationOffset = ⟨0, π, 0⟩) (hp : b'.pos = turnedHalf b.pos) :
    (trackRotation (realNum move milli) b'.rotationOffset off q).applyTo (turnedHalf w) =
      turnedHalf ((trackRotation (realNum move milli) b.rotationOffset off q).applyTo w) ∧
    trackPosition (realNum move milli) b'.rotationOffset b'.pos p =
      turnedHalf (trackPosition (realNum move milli) b.rotationOffset b.pos p) := by
  rw [hb, hb', hp]
  constructor
  · simp only [trackRotation, turnBoth, turnY, turnZ, realNum, cos_zero, sin_zero, cos_pi, sin_pi, Vec4.applyTo, turnedHalf,
      Vec3.mk.injEq]
    refine ⟨?_, ?_, ?_⟩ <;> ring
  · simp only [trackPosition, turnBoth, turnY, turnZ, realNum, cos_zero, sin_zero, cos_pi, sin_pi, turnedHalf, Vec3.add, Vec3.scale,
      Vec3.mk.injEq]
    refine ⟨?_, ?_, ?_⟩ <;> ring

/-! ### Examples -/

/-- A bone with a mark. -/
noncomputable def markedBone (pos off : Vec3 ℝ) : Bone ℝ where
  id := 1
  parent := 0
  name := "a".toList
  weights := []
  weightMap := []
  ik := none
  movable := 0
  hide := 0
  dummy := 0
  color := []
  upVector := none
  rotate := none
  group := 0
  pos := pos
  rotationOffset := off

example : (markedBone ⟨1, 2, 3⟩ ⟨0, 0, 0⟩).rotationOffset = ⟨0, 0, 0⟩ ∧ (markedBone ⟨-1, 2, -3⟩ ⟨0, π, 0⟩).rotationOffset = ⟨0, π, 0⟩ ∧
    (markedBone ⟨-1, 2, -3⟩ ⟨0, π, 0⟩).pos = turnedHalf (markedBone ⟨1, 2, 3⟩ ⟨0, 0, 0⟩).pos :=
  ⟨rfl, rfl, rfl⟩

/-- The option for a half turn with the document of the examples for transforms. -/
example : (scaleDocument ⟨-1, 1, -1⟩ true physicsDocument).isSome := by
  unfold scaleDocument
  rw [Option.isSome_map]
  exact transform_total _ _ (by simp [physicsDocument, placedObject, newObject])

end Verif.Mqo
