import Verif.Mqo.Core
import Verif.Geom.MatProps
import Mathlib.Algebra.Field.Defs
import Mathlib.Algebra.Field.Rat
import Mathlib.Tactic.Linarith
import Mathlib.Tactic.NormNum

/-!
Model of `BoneTransform` (mqo/bone_plugin.go:245-317) with property C72: turning a bone.

Modelled: the choice of the bones, the weights of the vertices, the new positions of bones and
vertices. Simplified: bone ids are taken to be the identity of bones (Go: pointers, and a map from id to
the last bone with that id); morph targets and physics bodies are left out; object ids are taken to be
distinct.
-/

namespace Verif.Mqo

open Verif.Geom

variable {F : Type}

/-- mqo/bone_plugin.go:247, 255-260: the ids of the bones that turn. -/
def turning (base : Int) (bones : List (Bone F)) : List Int :=
  bones.foldl (fun ts b => if b.parent > 0 ∧ b.parent ∈ ts ∧ b.id ∉ ts then b.id :: ts else ts) [base]

/-- mqo/bone_plugin.go:276-293: the weight of vertex `idx` (place in the list) of object `o`. -/
def turnWeight [Field F] (ts : List Int) (bones : List (Bone F)) (o : Object F) (idx : Int) : F :=
  (((bones.filter fun b => b.id ∈ ts).flatMap Bone.weights).filter fun g => g.objectID = o.uid).flatMap
    (fun g => g.vertexes.filter fun v => o.getVertexIndexByID v.vertexID = idx)
    |>.foldl (fun s v => s + v.weight / 100) 0

/-- mqo/bone_plugin.go:311-316: the new place of a point. -/
def turnPoint [CommRing F] (q : Vec4 F) (pos : Vec3 F) (p : Vec3 F) (w : F) : Vec3 F :=
  let dv := q.applyTo (p.sub pos)
  ⟨(dv.x + pos.x) * w + p.x * (1 - w), (dv.y + pos.y) * w + p.y * (1 - w), (dv.z + pos.z) * w + p.z * (1 - w)⟩

/-- mqo/bone_plugin.go:245-317 (`BoneTransform`) on bones. -/
def turnBones [Field F] (q : Vec4 F) (base : Bone F) (bones : List (Bone F)) : List (Bone F) :=
  bones.map fun b => if b.id ∈ turning base.id bones then { b with pos := turnPoint q base.pos b.pos 1 } else b

/-- mqo/bone_plugin.go:245-317 (`BoneTransform`) on an object. -/
def turnObject [Field F] (q : Vec4 F) (base : Bone F) (bones : List (Bone F)) (o : Object F) : Object F :=
  { o with vertexes := o.vertexes.mapIdx fun i v =>
      turnPoint q base.pos v (turnWeight (turning base.id bones) bones o i) }

/-! ## C72 -/

/-- `b` is below `base` in the bone tree (or is `base`). -/
inductive Below (bones : List (Bone F)) (base : Int) : Int → Prop
  | refl : Below bones base base
  | child (b : Bone F) (hb : b ∈ bones) (hp : b.parent > 0) (h : Below bones base b.parent) : Below bones base b.id

theorem turning_sound (base : Int) (bones : List (Bone F)) (all : List (Bone F)) :
    ∀ ts, (∀ b ∈ bones, b ∈ all) → (∀ i ∈ ts, Below all base i) →
      ∀ i ∈ bones.foldl (fun ts b => if b.parent > 0 ∧ b.parent ∈ ts ∧ b.id ∉ ts then b.id :: ts else ts) ts,
        Below all base i := by
  induction bones with
  | nil => intro ts _ h; exact h
  | cons b bones ih =>
    intro ts ha h
    rw [List.foldl_cons]
    apply ih _ (fun b' hb' => ha b' (by simp [hb']))
    intro i hi
    split_ifs at hi with hc
    · rcases List.mem_cons.1 hi with rfl | hi
      · exact .child b (ha b (by simp)) hc.1 (h _ hc.2.1)
      · exact h i hi
    · exact h i hi

theorem turning_mono (bones : List (Bone F)) : ∀ (ts : List Int) (i : Int), i ∈ ts →
    i ∈ bones.foldl (fun ts b => if b.parent > 0 ∧ b.parent ∈ ts ∧ b.id ∉ ts then b.id :: ts else ts) ts := by
  induction bones with
  | nil => intro ts i h; exact h
  | cons b bones ih =>
    intro ts i h
    rw [List.foldl_cons]
    apply ih
    split_ifs
    · exact List.mem_cons_of_mem _ h
    · exact h

theorem below_bone (base : Int) (bones : List (Bone F)) (hb : base ∈ bones.map Bone.id) (i : Int)
    (h : Below bones base i) : ∃ (j : Nat) (p : Bone F), bones[j]? = some p ∧ p.id = i := by
  induction h with
  | refl =>
    obtain ⟨p, h1, h2⟩ := List.mem_map.1 hb
    obtain ⟨j, hj⟩ := List.mem_iff_getElem?.1 h1
    exact ⟨j, p, hj, h2⟩
  | child p h1 _ _ =>
    obtain ⟨j, hj⟩ := List.mem_iff_getElem?.1 h1
    exact ⟨j, p, hj, rfl⟩

/-- Bones are listed after their parents. -/
def ParentsFirst (bones : List (Bone F)) : Prop :=
  (bones.map Bone.id).Nodup ∧ ∀ (i j : Nat) (b p : Bone F), bones[i]? = some b → bones[j]? = some p →
    b.parent > 0 → b.parent = p.id → j < i

/-- C72. If bones are listed after their parents, exactly the bone and the bones below it turn. Missing:
lists in another order, for which it is false (`turning_order_false`). -/
theorem turning_spec_partial (base : Int) (bones : List (Bone F)) (hb : base ∈ bones.map Bone.id) (hp : ParentsFirst bones) (i : Int) :
    i ∈ turning base bones ↔ Below bones base i := by
  constructor
  · exact turning_sound base bones bones [base] (fun _ h => h) (by simp; exact .refl) i
  · intro h
    -- a bone below base that is at place `n` is in the list after the first `n + 1` steps
    have key : ∀ i, Below bones base i → ∀ (n : Nat) (b : Bone F), bones[n]? = some b → b.id = i →
        i ∈ (bones.take (n + 1)).foldl
          (fun ts b => if b.parent > 0 ∧ b.parent ∈ ts ∧ b.id ∉ ts then b.id :: ts else ts) [base] := by
      intro i h
      induction h with
      | refl => intro n b _ _; exact turning_mono _ _ _ (by simp)
      | child b hb' hpar hbel ih =>
        intro n b' hn hid
        obtain ⟨m, hm⟩ := List.mem_iff_getElem?.1 hb'
        have hmn : m = n := by
          have e1 : (bones.map Bone.id)[m]? = some b.id := by simp [hm]
          have e2 : (bones.map Bone.id)[n]? = some b.id := by simp [hn, hid]
          exact (List.getElem?_inj (List.getElem?_eq_some_iff.1 e1).1 hp.1).1 (e1.trans e2.symm)
        subst hmn
        rw [hm] at hn
        cases hn
        -- the parent is a bone
        have hpb := below_bone base bones hb _ hbel
        obtain ⟨j, p, hj, hpid⟩ := hpb
        have hjm := hp.2 m j b p hm hj hpar hpid.symm
        have hin := ih j p hj hpid
        have hin2 : b.parent ∈ (bones.take m).foldl
            (fun ts b => if b.parent > 0 ∧ b.parent ∈ ts ∧ b.id ∉ ts then b.id :: ts else ts) [base] := by
          have : bones.take m = bones.take (j + 1) ++ (bones.take m).drop (j + 1) := by
            rw [show bones.take (j + 1) = (bones.take m).take (j + 1) by rw [List.take_take]; congr 1; omega]
            exact (List.take_append_drop _ _).symm
          rw [this, List.foldl_append]
          exact turning_mono _ _ _ hin
        have ht : bones.take (m + 1) = bones.take m ++ [b] := by
          rw [List.take_add_one, hm]; rfl
        rw [ht, List.foldl_append, List.foldl_cons, List.foldl_nil]
        split_ifs with hc
        · simp
        · by_contra hn
          exact hc ⟨hpar, hin2, hn⟩
    have hex := below_bone base bones hb _ h
    obtain ⟨n, b, hn, hid⟩ := hex
    have := key i h n b hn hid
    unfold turning
    rw [← List.take_append_drop (n + 1) bones, List.foldl_append]
    exact turning_mono _ _ _ this

section

variable [Field F]

/-- C72. Turning is rigid on bones that turn: distances (and all scalar products of differences) are
kept, and the bone itself stays where it is. -/
theorem turn_rigid (q : Vec4 F) (hq : q.Unit) (pos a b c : Vec3 F) :
    ((turnPoint q pos a 1).sub (turnPoint q pos c 1)).dot ((turnPoint q pos b 1).sub (turnPoint q pos c 1)) =
      (a.sub c).dot (b.sub c) ∧ turnPoint q pos pos 1 = pos ∧
    (turnPoint q pos a 1).sub pos = q.applyTo (a.sub pos) := by
  have hlin : ∀ a b : Vec3 F, (turnPoint q pos a 1).sub (turnPoint q pos b 1) = q.applyTo (a.sub b) := by
    intro a b
    simp only [turnPoint, Vec3.sub, Vec4.applyTo]
    ext <;> simp only <;> ring
  refine ⟨?_, ?_, ?_⟩
  · rw [hlin, hlin, quat_dot q hq]
  · simp only [turnPoint, Vec3.sub, Vec4.applyTo]
    ext <;> simp
  · have := hlin a pos
    have hp : turnPoint q pos pos 1 = pos := by
      simp only [turnPoint, Vec3.sub, Vec4.applyTo]
      ext <;> simp
    rwa [hp] at this

/-- C72. A vertex that no turning bone has weight on stays, and in general the new place is on the
line between the old one and the place it has if it turns fully, in proportion to the weight. -/
theorem turn_blend (q : Vec4 F) (pos p : Vec3 F) (w : F) :
    turnPoint q pos p 0 = p ∧
    turnPoint q pos p w = ((turnPoint q pos p 1).scale w).add (p.scale (1 - w)) := by
  constructor
  · simp only [turnPoint]
    ext <;> simp
  · simp only [turnPoint, Vec3.add, Vec3.scale]
    ext <;> simp only <;> ring

/-- The weights, in percent, of vertex `i` of the object `o` for the bones that turn. -/
def turnWeights (ts : List Int) (bones : List (Bone F)) (o : Object F) (i : Int) : List F := do
  let b ← bones.filter fun b => b.id ∈ ts
  let g ← b.weights.filter fun g => g.objectID = o.uid
  let v ← g.vertexes.filter fun v => o.getVertexIndexByID v.vertexID = i
  return v.weight

/-- The weight of a vertex is the sum of its percentages. -/
theorem turnWeight_sum (ts : List Int) (bones : List (Bone F)) (o : Object F) (i : Int) :
    turnWeight ts bones o i = (turnWeights ts bones o i).sum / 100 := by
  have hsum : ∀ (l : List (VertexWeight F)) (s : F),
      l.foldl (fun s v => s + v.weight / 100) s = s + (l.map (·.weight)).sum / 100 := by
    intro l
    induction l with
    | nil => intro s; simp
    | cons v l ih => intro s; rw [List.foldl_cons, ih, List.map_cons, List.sum_cons]; ring
  unfold turnWeight
  rw [hsum, zero_add]
  congr 1
  congr 1
  unfold turnWeights
  generalize bones.filter _ = l
  induction l with
  | nil => rfl
  | cons b l ih =>
    simp only [List.flatMap_cons, List.filter_append, List.flatMap_append, List.map_append, ih]
    simp only [List.bind_eq_flatMap, List.flatMap_cons, List.pure_def]
    congr 1
    generalize b.weights.filter _ = gs
    induction gs with
    | nil => rfl
    | cons g gs ih2 =>
      simp only [List.flatMap_cons, List.map_append, ih2]
      congr 1
      generalize g.vertexes.filter _ = vs
      induction vs with
      | nil => rfl
      | cons v vs ih3 => simp [ih3]

/-- C72. A vertex whose percentages for the turning bones add up to 100 turns with the bone. -/
theorem turn_full (h100 : (100 : F) ≠ 0) (q : Vec4 F) (base : Bone F) (bones : List (Bone F)) (o : Object F) (i : Nat)
    (v : Vec3 F) (hv : o.vertexes[i]? = some v)
    (hw : (turnWeights (turning base.id bones) bones o i).sum = 100) :
    (turnObject q base bones o).vertexes[i]? = some (base.pos.add (q.applyTo (v.sub base.pos))) := by
  unfold turnObject
  simp only [List.getElem?_mapIdx, hv, Option.map_some]
  rw [turnWeight_sum, hw, div_self h100]
  congr 1
  simp only [turnPoint, Vec3.add]
  ext <;> simp only <;> ring

/-- C72. Objects and bones without connection to the bone are not changed. -/
theorem turn_others (q : Vec4 F) (base : Bone F) (bones : List (Bone F)) (o : Object F)
    (h : ∀ b ∈ bones, b.id ∈ turning base.id bones → ∀ g ∈ b.weights, g.objectID ≠ o.uid) :
    turnObject q base bones o = o ∧
    ∀ b ∈ bones, b.id ∉ turning base.id bones → b ∈ turnBones q base bones := by
  constructor
  · have hw : ∀ i, turnWeight (turning base.id bones) bones o i = 0 := by
      intro i
      unfold turnWeight
      have : ((bones.filter fun b => b.id ∈ turning base.id bones).flatMap Bone.weights).filter
          (fun g => g.objectID = o.uid) = [] := by
        rw [List.filter_eq_nil_iff]
        intro g hg
        obtain ⟨b, hb, hgb⟩ := List.mem_flatMap.1 hg
        obtain ⟨h1, h2⟩ := List.mem_filter.1 hb
        simpa using h b h1 (by simpa using h2) g hgb
      rw [this]
      rfl
    have hv : o.vertexes.mapIdx (fun i v =>
        turnPoint q base.pos v (turnWeight (turning base.id bones) bones o i)) = o.vertexes := by
      apply List.ext_getElem?
      intro i
      rw [List.getElem?_mapIdx]
      cases o.vertexes[i]? with
      | none => rfl
      | some v => simp [hw, (turn_blend q base.pos v 0).1]
    unfold turnObject
    rw [hv]
  · intro b hb hn
    exact List.mem_map.2 ⟨b, hb, by rw [if_neg hn]⟩

end

def boneAt (id parent : Int) : Bone ℚ :=
  ⟨id, [], 0, parent, ⟨id, 0, 0⟩, 0, 0, 0, [], none, none, none, [], [], ⟨0, 0, 0⟩⟩

/-- C72 is false if a child is listed before its parent: the child of a turning bone stays behind. -/
theorem turning_order_false : ∃ bones : List (Bone ℚ), (bones.map Bone.id).Nodup ∧
    Below bones 1 3 ∧ 3 ∉ turning 1 bones :=
  ⟨[boneAt 1 0, boneAt 3 2, boneAt 2 1], by decide,
    .child (boneAt 3 2) (by simp) (by decide) (.child (boneAt 2 1) (by simp) (by decide) .refl), by decide⟩

example : ParentsFirst [boneAt 1 0, boneAt 2 1, boneAt 3 2] ∧ turning 2 [boneAt 1 0, boneAt 2 1, boneAt 3 2] = [3, 2] := by
  refine ⟨⟨by decide, ?_⟩, by decide⟩
  intro i j b p hi hj hpar he
  match i, j, hi, hj with
  | 0, _, hi, _ => simp [boneAt] at hi; subst hi; simp at hpar
  | 1, 0, _, _ => omega
  | 1, 1, hi, hj => simp [boneAt] at hi hj; subst hi hj; simp at he
  | 1, 2, hi, hj => simp [boneAt] at hi hj; subst hi hj; simp at he
  | 2, 0, _, _ => omega
  | 2, 1, _, _ => omega
  | 2, 2, hi, hj => simp [boneAt] at hi hj; subst hi hj; simp at he
  | n + 3, _, hi, _ => simp at hi
  | _, n + 3, _, hj => simp at hj

/-- A vertex with 60 percent on one turning bone and 40 on another. -/
example : (turnWeights [3, 2] [{ boneAt 2 1 with weights := [⟨7, [⟨1, 60⟩, ⟨2, 100⟩]⟩] },
    { boneAt 3 2 with weights := [⟨7, [⟨1, 40⟩]⟩] }] ({ newObject (59 : ℚ) [] with uid := 7, vertexes := [⟨0, 0, 0⟩, ⟨1, 0, 0⟩] }) 0).sum
      = 100 := by decide +kernel

end Verif.Mqo
