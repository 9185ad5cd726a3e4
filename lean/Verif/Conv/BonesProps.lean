import Verif.Conv.MqoToMmd
import Verif.Conv.MmdGroupsProps
import Verif.Geom.Mat
import Mathlib.Tactic.Ring
import Mathlib.Tactic.FieldSimp
import Mathlib.Tactic.LinearCombination
import Mathlib.Tactic.NormNum
import Mathlib.Algebra.Order.Field.Basic
import Mathlib.Algebra.Order.Ring.Abs

/-! C39 and C84 (rigid bodies), C82 (bones), C83 (weights from MMD to MQO). -/

namespace Verif.Conv

open Verif.Geom
open Verif.Mqo (Str Bone)

variable {F : Type}

/-! ## C82 -/

/-- Bones numbered from 1 are found at their place. -/
theorem boneIndex_numbered (bones : List (Bone F)) (h : ∀ (i : Nat) b, bones[i]? = some b → b.id = i + 1)
    (i : Nat) (hi : i < bones.length) : boneIndex bones (i + 1) = i := by
  unfold boneIndex
  have : (bones.zipIdx.filter fun p => p.1.id = (i : Int) + 1) = [(bones[i], i)] := by
    have key : ∀ (l : List (Bone F)) (k : Nat), (∀ (j : Nat) b, l[j]? = some b → b.id = ((k + j : Nat) : Int) + 1) →
        ∀ j (hj : j < l.length), ((l.zipIdx k).filter fun p => p.1.id = ((k + j : Nat) : Int) + 1) =
          [(l[j], k + j)] := by
      intro l
      induction l with
      | nil => intro k _ j hj; simp at hj
      | cons b l ih =>
        intro k h j hj
        have hb := h 0 b rfl
        rw [List.zipIdx_cons]
        have hrest : ∀ (j : Nat) b, l[j]? = some b → b.id = ((k + 1 + j : Nat) : Int) + 1 := by
          intro j' b' hb'
          have := h (j' + 1) b' (by simpa using hb')
          rw [this]; push_cast; ring
        cases j with
        | zero =>
          rw [List.filter_cons_of_pos (by simp [hb])]
          congr 1
          rw [List.filter_eq_nil_iff]
          rintro ⟨b', n⟩ hm
          rw [List.mem_zipIdx_iff_le_and_getElem?_sub] at hm
          have := hrest _ _ hm.2
          simp only [decide_eq_true_eq]
          rw [this]
          have := hm.1
          simp at this
          push_cast
          omega
        | succ j =>
          rw [List.filter_cons_of_neg (by simp [hb]; omega)]
          have := ih (k + 1) hrest j (by simpa using hj)
          have hk : k + 1 + j = k + (j + 1) := by omega
          simp only [hk] at this
          rw [this]
          simp
    have := key bones 0 (fun j b hb => by simpa using h j b hb) i hi
    simpa using this
  rw [this]
  simp

/-- The bone without rotation inheritance that counts. -/
def Plain [FloatOps F] (known : List Str) (threshold : F) (b : MmdBone F) : Prop :=
  b.inheritRotation = false ∨ lt threshold b.influence = false ∨ known = []

theorem mqoBones_plain [Mul F] [One F] [Neg F] [Zero F] [FloatOps F] (known : List Str) (threshold : F)
    (bones : List (MmdBone F)) (hp : ∀ b ∈ bones, Plain known threshold b) :
    ∃ bs, mqoBones known threshold bones = some bs ∧ bs.length = bones.length ∧
      ∀ (i : Nat) b, bones[i]? = some b → ∃ b', bs[i]? = some b' ∧ b'.id = i + 1 ∧ b'.name = b.name ∧
        b'.parent = b.parent + 1 ∧ b'.pos = mmdToMqoVec b.pos := by
  have hone : ∀ b ∈ bones, inheritedParent known threshold bones b = some (b.parent + 1) := by
    intro b hb
    unfold inheritedParent
    rw [if_neg]
    rintro ⟨h1, h2, h3, h4⟩
    rcases hp b hb with h | h | h
    · simp [h] at h1
    · simp [h] at h2
    · exact h4 h
  unfold mqoBones
  obtain ⟨bs, hbs⟩ := (mapM_some_iff (fun (x : MmdBone F × Nat) => mqoBone known threshold bones x.2 x.1)
    bones.zipIdx).mpr (by
      rintro ⟨b, i⟩ hm
      have : b ∈ bones := by
        rw [List.mem_zipIdx_iff_getElem?] at hm
        exact List.mem_of_getElem? hm
      simp [mqoBone, hone b this])
  obtain ⟨hl, hg⟩ := mapM_getElem? _ _ _ hbs
  refine ⟨bs, hbs, by simpa using hl, ?_⟩
  intro i b hb
  obtain ⟨y, hy1, hy2⟩ := hg i (b, i) (by simp [List.getElem?_zipIdx, hb])
  simp only [mqoBone, hone b (List.mem_of_getElem? hb), Option.some.injEq] at hy2
  subst hy2
  exact ⟨_, hy1, rfl, rfl, rfl, rfl⟩

/-- C82. Bones that inherit no rotation come back from MQO (after scaling by 80) with the same name,
position and parent. -/
theorem bones_roundtrip [Field F] [FloatOps F] (h80 : (80 : F) ≠ 0) (known : List Str) (threshold : F)
    (bones : List (MmdBone F)) (hp : ∀ b ∈ bones, Plain known threshold b)
    (hpar : ∀ b ∈ bones, -1 ≤ b.parent ∧ b.parent < bones.length) :
    ∃ bs, mqoBones known threshold bones = some bs ∧
      mmdBones (1 / 80) (bs.map fun b => { b with pos := (Mat4.scaling 80 80 80).applyTo b.pos }) =
        bones.map fun b => (b.name, b.pos, b.parent) := by
  obtain ⟨bs, e, hl, hg⟩ := mqoBones_plain known threshold bones hp
  refine ⟨bs, e, ?_⟩
  have hnum : ∀ (i : Nat) b, (bs.map fun b => ({ b with
      pos := (Mat4.scaling 80 80 80).applyTo b.pos } : Bone F))[i]? = some b → b.id = i + 1 := by
    intro i b hb
    rw [List.getElem?_map] at hb
    obtain ⟨b0, h0, rfl⟩ := Option.map_eq_some_iff.mp hb
    have hi : i < bones.length := by rw [← hl]; exact (List.getElem?_eq_some_iff.mp h0).1
    obtain ⟨b', hb', hid, _⟩ := hg i bones[i] (by simp)
    rw [h0] at hb'
    rw [Option.some.inj hb']
    exact hid
  apply List.ext_getElem?
  intro i
  by_cases hi : i < bones.length
  · obtain ⟨b', hb', hid, hn, hpa, hpo⟩ := hg i bones[i] (by simp)
    have hpr := hpar bones[i] (List.getElem_mem hi)
    simp only [mmdBones, List.getElem?_map, hb', Option.map_some, List.getElem?_eq_getElem hi,
      Option.some.injEq, Prod.mk.injEq]
    refine ⟨hn, ?_, ?_⟩
    · rw [hpo]
      simp only [mqoToMmdVec, Mat4.scaling, Mat4.applyTo, mmdToMqoVec]
      ext <;> field_simp <;> ring
    · rw [hpa]
      by_cases hneg : bones[i].parent = -1
      · rw [hneg]; rfl
      · rw [if_pos (by omega)]
        obtain ⟨n, hn⟩ : ∃ n : Nat, bones[i].parent = (n : Int) := ⟨bones[i].parent.toNat, by omega⟩
        rw [hn, boneIndex_numbered _ hnum n (by simp [hl]; omega)]
  · rw [List.getElem?_eq_none (by simp [mmdBones, hl]; omega), List.getElem?_eq_none (by simp; omega)]

/-- C82. A bone that inherits rotation with enough influence from a known bone gets that bone as
parent. -/
theorem mqoBone_inherits [Mul F] [One F] [Neg F] [Zero F] [FloatOps F] (known : List Str) (threshold : F)
    (bones : List (MmdBone F)) (i j : Nat) (b p : MmdBone F) (hb : b.inheritRotation = true)
    (hi : lt threshold b.influence = true) (hj : b.inheritParent = (j : Int)) (hp : bones[j]? = some p)
    (hk : p.name ∈ known) : ∃ b', mqoBone known threshold bones i b = some b' ∧ b'.parent = j + 1 := by
  have hlt := (List.getElem?_eq_some_iff.mp hp).1
  have hne : known ≠ [] := fun e => by simp [e] at hk
  have : inheritedParent known threshold bones b = some (b.inheritParent + 1) := by
    unfold inheritedParent
    rw [if_pos ⟨hb, hi, by omega, hne⟩, if_neg (by omega), hj, Int.toNat_natCast, hp]
    simp [hk]
  unfold mqoBone
  rw [this]
  exact ⟨_, rfl, by simp [hj]⟩

/-- The conversion stops if a bone inherits rotation from no bone (number -1), as soon as bone names
are given. -/
theorem mqoBones_panics [Mul F] [One F] [Neg F] [Zero F] [FloatOps F] (known : List Str) (threshold : F)
    (bones : List (MmdBone F)) (b : MmdBone F) (hm : b ∈ bones) (hb : b.inheritRotation = true)
    (hi : lt threshold b.influence = true) (hj : b.inheritParent = -1) (hk : known ≠ []) :
    mqoBones known threshold bones = none := by
  cases h : mqoBones known threshold bones with
  | none => rfl
  | some bs =>
    obtain ⟨i, hi', rfl⟩ := List.mem_iff_getElem.mp hm
    unfold mqoBones at h
    obtain ⟨y, -, hy⟩ := (mapM_getElem? _ _ _ h).2 i (bones[i], i) (by simp [List.getElem?_zipIdx])
    simp only [mqoBone, inheritedParent] at hy
    rw [if_pos ⟨hb, hi, by omega, hk⟩, if_pos (by omega)] at hy
    simp at hy

/-! ## C83 -/

/-- The weight of bone `b` in a list. -/
def weightOf [AddMonoid F] (l : List (Nat × F)) (b : Nat) : F :=
  ((l.filter fun p => p.1 = b).map (·.2)).sum

theorem weightStep_spec [CommRing F] [FloatOps F] (hundred : F) (l : List (Nat × F)) (e : Nat × F)
    (hn : (l.map (·.1)).Nodup) :
    ((weightStep hundred hundred l e).map (·.1)).Nodup ∧
    (∀ b, weightOf (weightStep hundred hundred l e) b =
      weightOf l b + if e.1 = b ∧ lt 0 e.2 = true then hundred * e.2 else 0) ∧
    (∀ b, b ∈ (weightStep hundred hundred l e).map (·.1) ↔
      b ∈ l.map (·.1) ∨ (e.1 = b ∧ lt 0 e.2 = true)) := by
  unfold weightStep
  split
  · rename_i hp
    split
    · rename_i hm
      have hkeys : (l.map fun p => if p.1 = e.1 then (p.1, p.2 + hundred * e.2) else p).map (·.1) =
          l.map (·.1) := by
        rw [List.map_map]
        apply List.map_congr_left
        intro p _
        simp only [Function.comp]
        split <;> rfl
      refine ⟨by rw [hkeys]; exact hn, ?_, ?_⟩
      · intro b
        clear hkeys
        induction l with
        | nil => simp at hm
        | cons p l ih =>
          simp only [List.map_cons, List.nodup_cons] at hn
          by_cases hpe : p.1 = e.1
          · have hnot : e.1 ∉ l.map (·.1) := by rw [← hpe]; exact hn.1
            have hl : (l.map fun p => if p.1 = e.1 then (p.1, p.2 + hundred * e.2) else p) = l := by
              conv_rhs => rw [← List.map_id l]
              apply List.map_congr_left
              intro q hq
              have : q.1 ≠ e.1 := fun h => hnot (List.mem_map.mpr ⟨q, hq, h⟩)
              simp [this]
            rw [List.map_cons, hl]
            unfold weightOf
            by_cases hb : p.1 = b
            · simp only [hpe, if_true, ← hb, hp, and_self, decide_true, List.filter_cons_of_pos,
                List.map_cons, List.sum_cons]
              ring
            · have : ¬ e.1 = b := fun h => hb (by rw [hpe, h])
              simp [hpe, this]
          · have hm' : e.1 ∈ l.map (·.1) := by
              simp only [List.map_cons, List.mem_cons] at hm
              exact hm.resolve_left (fun h => hpe h.symm)
            have := ih hn.2 hm'
            unfold weightOf at this ⊢
            rw [List.map_cons, if_neg hpe]
            by_cases hb : p.1 = b
            · simp only [hb, decide_true, List.filter_cons_of_pos, List.map_cons, List.sum_cons, this]
              ring
            · simp only [hb, decide_false, Bool.false_eq_true, not_false_eq_true,
                List.filter_cons_of_neg, this]
      · intro b
        rw [hkeys]
        constructor
        · exact .inl
        · rintro (h | ⟨rfl, -⟩)
          · exact h
          · exact hm
    · rename_i hm
      refine ⟨?_, ?_, ?_⟩
      · rw [List.map_append, List.nodup_append]
        refine ⟨hn, by simp, ?_⟩
        rintro a ha b hb rfl
        simp at hb
        exact hm (hb ▸ ha)
      · intro b
        unfold weightOf
        by_cases hb : e.1 = b
        · simp [List.filter_append, hb, hp]
        · simp [List.filter_append, hb]
      · intro b
        simp [hp, eq_comm]
  · rename_i hp
    refine ⟨hn, ?_, ?_⟩
    · intro b; simp [hp]
    · intro b; simp [hp]

/-- C83. For the vertices of ordinary objects: with valid bone numbers at the positive weights there is one weight per bone with
a positive weight, a hundred times the sum of the positive weights of the bone. -/
theorem vertexWeights_spec [CommRing F] [FloatOps F] (hundred : F) (nbones : Nat) (bones : List Nat)
    (ws : List F) (hl : bones.length ≤ ws.length)
    (hb : ∀ e ∈ bones.zip ws, lt 0 e.2 = true → e.1 < nbones) :
    ∃ r, vertexWeights hundred hundred nbones bones ws = some r ∧ (r.map (·.1)).Nodup ∧
      (∀ b, weightOf r b = hundred *
        (((bones.zip ws).filter fun e => e.1 = b ∧ lt 0 e.2 = true).map (·.2)).sum) ∧
      ∀ b, b ∈ r.map (·.1) ↔ ∃ w, (b, w) ∈ bones.zip ws ∧ lt 0 w = true := by
  refine ⟨(bones.zip ws).foldl (weightStep hundred hundred) [], ?_, ?_⟩
  · unfold vertexWeights
    rw [if_pos ⟨hl, hb⟩]
  · have key : ∀ (es l : List (Nat × F)), (l.map (·.1)).Nodup →
        ((es.foldl (weightStep hundred hundred) l).map (·.1)).Nodup ∧
        (∀ b, weightOf (es.foldl (weightStep hundred hundred) l) b = weightOf l b + hundred *
          ((es.filter fun e => e.1 = b ∧ lt 0 e.2 = true).map (·.2)).sum) ∧
        ∀ b, b ∈ (es.foldl (weightStep hundred hundred) l).map (·.1) ↔ b ∈ l.map (·.1) ∨
          ∃ w, (b, w) ∈ es ∧ lt 0 w = true := by
      intro es
      induction es with
      | nil => intro l hn; exact ⟨hn, by simp, by simp⟩
      | cons e es ih =>
        intro l hn
        obtain ⟨h1, h2, h3⟩ := weightStep_spec hundred l e hn
        obtain ⟨g1, g2, g3⟩ := ih _ h1
        refine ⟨g1, ?_, ?_⟩
        · intro b
          rw [List.foldl_cons, g2, h2]
          by_cases he : e.1 = b ∧ lt 0 e.2 = true
          · rw [if_pos he, List.filter_cons_of_pos (by simpa using he), List.map_cons, List.sum_cons]
            ring
          · rw [if_neg he, List.filter_cons_of_neg (by simpa using he)]
            ring
        · intro b
          rw [List.foldl_cons, g3, h3]
          constructor
          · rintro ((h | ⟨rfl, h⟩) | ⟨w, h, hw⟩)
            · exact .inl h
            · exact .inr ⟨e.2, by simp, h⟩
            · exact .inr ⟨w, by simp [h], hw⟩
          · rintro (h | ⟨w, h, hw⟩)
            · exact .inl (.inl h)
            · rcases List.mem_cons.mp h with rfl | h
              · exact .inl (.inr ⟨rfl, hw⟩)
              · exact .inr ⟨w, h, hw⟩
    obtain ⟨h1, h2, h3⟩ := key (bones.zip ws) [] (by simp)
    refine ⟨h1, ?_, ?_⟩
    · intro b; rw [h2]; simp [weightOf]
    · intro b; rw [h3]; simp

/-- C83. A positive weight for a bone that does not exist makes the conversion panic. -/
theorem vertexWeights_unknown_false [CommRing F] [FloatOps F] (hundred more : F) (nbones : Nat) (bones : List Nat)
    (ws : List F) (b : Nat) (w : F) (he : (b, w) ∈ bones.zip ws) (hw : lt 0 w = true) (hb : nbones ≤ b) :
    vertexWeights hundred more nbones bones ws = none := by
  unfold vertexWeights
  rw [if_neg]
  rintro ⟨_, h⟩
  have := h _ he hw
  simp only at this
  omega

/-- C83 is false for the base objects of morphs: a bone that is named twice gets too little weight. -/
theorem vertexWeights_morphBase_false [Field F] [CharZero F] [FloatOps F] (nbones b : Nat) (hb : b < nbones)
    (w1 w2 : F) (h1 : lt 0 w1 = true) (h2 : lt 0 w2 = true) (hne : w2 ≠ 0) :
    ∃ r, vertexWeights 100 1 nbones [b, b] [w1, w2] = some r ∧ r = [(b, 100 * w1 + 1 * w2)] ∧
      weightOf r b ≠ 100 * (w1 + w2) := by
  refine ⟨[(b, 100 * w1 + 1 * w2)], ?_, rfl, ?_⟩
  · unfold vertexWeights
    rw [if_pos ⟨by simp, by simp [hb]⟩]
    simp [weightStep, h1, h2]
  · simp only [weightOf, decide_true, List.filter_cons_of_pos, List.filter_nil, List.map_cons,
      List.map_nil, List.sum_cons, List.sum_nil, add_zero]
    intro e
    have : (99 : F) * w2 = 0 := by linear_combination -e
    rcases mul_eq_zero.mp this with h | h
    · exact absurd h (by norm_num)
    · exact hne h

/-! ## C39, C84 -/

/-- C39 is false of the code: the kind of every body is turned round. -/
theorem body_mode_false [Mul F] [One F] [Neg F] (s : F) (bones : List (Bone F)) (b : MmdBody F) :
    (mmdBody s bones (mqoBody b)).map (·.mode) = [if b.mode = 0 then 1 else 0] := by
  simp [mmdBody, mqoBody]

/-- C39 is false of the code: a body without bone is attached to the first bone. -/
theorem body_bone_false [Mul F] [One F] [Neg F] (s : F) (bones : List (Bone F)) (b : MmdBody F)
    (h : ∀ (i : Nat) x, bones[i]? = some x → x.id = i + 1) (hb : b.bone = -1) :
    (mmdBody s bones (mqoBody b)).map (·.bone) = [0] := by
  have : boneIndex bones (b.bone + 1) = 0 := by
    rw [hb]
    unfold boneIndex
    have : (bones.zipIdx.filter fun p => p.1.id = (-1 : Int) + 1) = [] := by
      rw [List.filter_eq_nil_iff]
      rintro ⟨x, i⟩ hx
      rw [List.mem_zipIdx_iff_getElem?] at hx
      have := h i x hx
      simp only [decide_eq_true_eq]
      omega
    rw [this]
    rfl
  simp [mmdBody, mqoBody, this]

/-- C39, the part that holds: everything else comes back, if the body has a bone and one of the three
shapes. -/
theorem body_roundtrip_partial [Field F] (bones : List (Bone F)) (b : MmdBody F)
    (h : ∀ (i : Nat) x, bones[i]? = some x → x.id = i + 1) (i : Nat) (hi : i < bones.length)
    (hb : b.bone = i) (hs : b.shape < 3) :
    mmdBody 1 bones (mqoBody b) = [{ b with mode := if b.mode = 0 then 1 else 0 }] := by
  have h1 : boneIndex bones (b.bone + 1) = i := by rw [hb]; exact boneIndex_numbered bones h i hi
  have h2 : shapeNumber (shapeName b.shape) = b.shape := by
    match b.shape, hs with
    | 0, _ => rfl
    | 1, _ => rfl
    | 2, _ => rfl
  have h3 : ∀ v : Vec3 F, mqoToMmdVec 1 (mmdToMqoVec v) = v := by
    intro v
    simp only [mqoToMmdVec, mmdToMqoVec]
    ext <;> ring
  simp [mmdBody, mqoBody, h1, h2, h3]
  simp [hb]

/-- C84, the part that holds: the sizes along X and Y are kept by the conversion to MQO and multiplied by the scale by the
conversion to MMD, so they stay positive; the size along Z has the right absolute value. There is one shape for each body and
one body for each shape. -/
theorem body_size_partial [Field F] [LinearOrder F] [IsStrictOrderedRing F] (s : F) (hs : 0 < s) (bones : List (Bone F)) :
    (∀ b : MmdBody F, ∃ sh, (mqoBody b).shapes = [sh] ∧ sh.size.x = b.size.x ∧ sh.size.y = b.size.y ∧
      |sh.size.z| = |b.size.z|) ∧
    ∀ b : Mqo.PhysicsBody F, List.Forall₂ (fun (m : MmdBody F) (sh : Mqo.PhysicsShape F) => m.size.x = sh.size.x * s ∧ m.size.y = sh.size.y * s ∧
      |m.size.z| = |sh.size.z| * s ∧ (0 < sh.size.x → 0 < m.size.x) ∧ (0 < sh.size.y → 0 < m.size.y))
      (mmdBody s bones b) b.shapes := by
  constructor
  · intro b
    exact ⟨_, rfl, by simp [mmdToMqoVec], by simp [mmdToMqoVec], by simp [mmdToMqoVec]⟩
  · intro b
    unfold mmdBody
    generalize b.name = name
    rw [List.forall₂_iff_get]
    refine ⟨by simp, ?_⟩
    intro i h1 h2
    simp only [List.get_eq_getElem, List.getElem_mapIdx]
    simp only [mqoToMmdVec, abs_mul, abs_neg, abs_of_pos hs]
    refine ⟨trivial, trivial, by simp, ?_, ?_⟩
    · intro h; exact mul_pos h hs
    · intro h; exact mul_pos h hs

/-- C84 is false of the code: every body with an extent along Z gets a negative size in the MQO
document. -/
theorem body_size_false [Field F] [LinearOrder F] [IsStrictOrderedRing F] (b : MmdBody F)
    (hz : 0 < b.size.z) : ∀ sh ∈ (mqoBody b).shapes, sh.size.z < 0 := by
  simp [mqoBody, mmdToMqoVec, hz]

/-- C84 is false of the code: with the scaling of the command line program the size has the wrong sign
after the way back, too. -/
theorem body_size_roundtrip_false [Field F] [LinearOrder F] [IsStrictOrderedRing F] (v : Vec3 F)
    (hx : 0 < v.x) (hy : 0 < v.y) (hz : 0 < v.z) :
    mqoToMmdVec (1 / 80) (scaleSize abs ⟨80, 80, 80⟩ (mmdToMqoVec v)) = ⟨v.x, v.y, -v.z⟩ := by
  have h80 : (0 : F) < 80 := by norm_num
  simp only [mqoToMmdVec, scaleSize, mmdToMqoVec, abs_mul, abs_neg, abs_one, abs_of_pos hx,
    abs_of_pos hy, abs_of_pos hz, abs_of_pos h80]
  ext <;> field_simp

/-! ## Examples -/

section
instance exampleOpsRat : FloatOps ℚ := ⟨id, fun a b => decide (a < b), fun a b => decide (a ≤ b)⟩

def boneSample : List (MmdBone ℚ) :=
  [⟨['a'], ⟨0, 0, 0⟩, -1, 0, false, -1, 0, true⟩, ⟨['b'], ⟨1, 2, 3⟩, 0, 0, false, -1, 0, false⟩]

example : (∀ b ∈ boneSample, Plain [['a']] 0 b) ∧
    ∀ b ∈ boneSample, -1 ≤ b.parent ∧ b.parent < boneSample.length := by
  constructor
  · intro b hb
    left
    simp [boneSample] at hb
    rcases hb with rfl | rfl <;> rfl
  · decide

/-- Twist bones: the second inherits from the first and becomes its child. -/
example : (mqoBones [['a']] 0 [⟨['a'], ⟨0, 0, 0⟩, -1, 0, false, -1, 0, true⟩,
    ⟨['b'], ⟨1, 2, 3⟩, -1, 0, true, 0, 1, false⟩] : Option (List (Bone ℚ))).map (·.map (·.parent)) =
    some [0, 1] := by decide +kernel

/-- The same with a bone that inherits from none. -/
example : (mqoBones [['a']] 0 [⟨['a'], ⟨0, 0, 0⟩, -1, 0, false, -1, 0, true⟩,
    ⟨['b'], ⟨1, 2, 3⟩, -1, 0, true, -1, 1, false⟩] : Option (List (Bone ℚ))).isNone := by decide +kernel

example : lt (0 : ℚ) (1 / 2) = true := by decide +kernel

example : vertexWeights (100 : ℚ) 100 2 [0, 1, 0] [1 / 2, 1 / 4, 1 / 4] = some [(0, 75), (1, 25)] := by
  decide +kernel

example : ∃ b : MmdBody ℚ, 0 < b.size.x ∧ 0 < b.size.z ∧ b.shape < 3 ∧ b.bone = (0 : Nat) :=
  ⟨⟨[], 0, 0, 0, 1, ⟨1, 1, 1⟩, ⟨0, 0, 0⟩, ⟨0, 0, 0⟩, 1, 0, 0, 0, 0, 0⟩, by decide, by decide,
    by decide, rfl⟩

end

end Verif.Conv
