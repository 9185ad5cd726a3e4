import Verif.Conv.FbxToMqo
import Verif.Mqo.ObjectProps
import Mathlib.Data.List.Nodup
import Mathlib.Data.List.Chain

/-! Lemmas on the bones made from the deformers of an FBX document (converter/fbx2mqo.go:287-327). -/

namespace Verif.Conv

open Verif.Geom
open Verif.Mqo (Str Object Face Bone WeightCall)

variable {F : Type}

/-! ### Parents -/

/-- `Height sc m n`: the model `m` has exactly `n` models above it. -/
inductive Height (sc : FScene F) : Nat → Nat → Prop
  | top (m : Nat) : (sc.model m).parent = none → Height sc m 0
  | step (m p n : Nat) : (sc.model m).parent = some p → Height sc p n → Height sc m (n + 1)

theorem Height.unique {sc : FScene F} {m n : Nat} (h : Height sc m n) : ∀ {k}, Height sc m k → n = k := by
  induction h with
  | top m hp =>
    intro k hk
    cases hk with
    | top => rfl
    | step _ p n hp' => rw [hp] at hp'; simp at hp'
  | step m p n hp _ ih =>
    intro k hk
    cases hk with
    | top _ hp' => rw [hp] at hp'; simp at hp'
    | step _ p' n' hp' h' =>
      rw [hp] at hp'
      cases hp'
      rw [ih h']

theorem height_of_worldMat [Add F] [Mul F] (sc : FScene F) : ∀ (fuel m : Nat) (w : Mat4 F),
    worldMat sc fuel m = some w → ∃ n, Height sc m n := by
  intro fuel
  induction fuel with
  | zero => intro m w h; simp [worldMat] at h
  | succ fuel ih =>
    intro m w h
    unfold worldMat at h
    split at h
    · rename_i hp
      exact ⟨0, .top m hp⟩
    · rename_i p hp
      rw [Option.map_eq_some_iff] at h
      obtain ⟨w', h', _⟩ := h
      obtain ⟨n, hn⟩ := ih p w' h'
      exact ⟨n + 1, .step m p n hp hn⟩

/-- `Above sc a m`: `a` is the model `m` or one of the models above it. -/
inductive Above (sc : FScene F) : Nat → Nat → Prop
  | self (m : Nat) : Above sc m m
  | up (a b m : Nat) : (sc.model b).parent = some a → Above sc b m → Above sc a m

theorem Above.height {sc : FScene F} {a m : Nat} (h : Above sc a m) : ∀ {k}, Height sc a k →
    ∃ n, Height sc m n ∧ k ≤ n ∧ (a ≠ m → k < n) := by
  induction h with
  | self m => intro k hk; exact ⟨k, hk, le_refl _, fun e => absurd rfl e⟩
  | up a b m hp _ ih =>
    intro k hk
    obtain ⟨n, h1, h2, _⟩ := ih (.step b a k hp hk)
    exact ⟨n, h1, by omega, fun _ => by omega⟩

theorem Above.trans {sc : FScene F} {a b m : Nat} (h1 : Above sc a b) (h2 : Above sc b m) : Above sc a m := by
  induction h1 with
  | self => exact h2
  | up a c b hp _ ih => exact .up a c m hp (ih h2)

/-! ### The path to the first model with a bone -/

/-- Each model of the path is the parent of the one before. -/
def PathLinked (sc : FScene F) : Option Nat → List Nat → Prop
  | _, [] => True
  | o, m :: ms => o = some m ∧ PathLinked sc (sc.model m).parent ms

/-- What follows after the path. -/
def pathEnd (sc : FScene F) : Option Nat → List Nat → Option Nat
  | o, [] => o
  | _, m :: ms => pathEnd sc (sc.model m).parent ms

theorem PathLinked.above {sc : FScene F} : ∀ {path : List Nat} {m : Nat}, PathLinked sc (some m) path →
    ∀ a ∈ path, Above sc a m := by
  intro path
  induction path with
  | nil => simp
  | cons x xs ih =>
    intro m h a ha
    obtain ⟨h1, h2⟩ := h
    have e : x = m := (Option.some.inj h1).symm
    subst e
    rcases List.mem_cons.1 ha with rfl | ha
    · exact .self _
    · cases hp : (sc.model x).parent with
      | none =>
        rw [hp] at h2
        cases xs with
        | nil => simp at ha
        | cons y ys => simp [PathLinked] at h2
      | some p =>
        rw [hp] at h2
        exact (ih h2 a ha).trans (.up p x x hp (.self x))

theorem bonePath_spec (sc : FScene F) : ∀ (fuel : Nat) (o : Option Nat) (bm bm' : Nat → Option Int) (path : List Nat),
    bonePath sc fuel o bm = some (path, bm') →
    PathLinked sc o path ∧ path.Nodup ∧ sc.scene ∉ path ∧ (∀ m ∈ path, bm m = none ∧ bm' m = some 0) ∧
      (∀ m, m ∉ path → bm' m = bm m) ∧
      (pathEnd sc o path = none ∨ pathEnd sc o path = some sc.scene ∨
        ∃ e, pathEnd sc o path = some e ∧ e ≠ sc.scene ∧ (bm' e).isSome = true) := by
  intro fuel
  induction fuel with
  | zero => intro o bm bm' path h; simp [bonePath] at h
  | succ fuel ih =>
    intro o bm bm' path h
    cases o with
    | none =>
      simp only [bonePath, Option.some.injEq, Prod.mk.injEq] at h
      obtain ⟨rfl, rfl⟩ := h
      simp [PathLinked, pathEnd]
    | some m =>
      simp only [bonePath] at h
      split at h
      · rename_i hs
        simp only [Option.some.injEq, Prod.mk.injEq] at h
        obtain ⟨rfl, rfl⟩ := h
        simp [PathLinked, pathEnd, hs]
      · rename_i hs
        split at h
        · rename_i k hk
          simp only [Option.some.injEq, Prod.mk.injEq] at h
          obtain ⟨rfl, rfl⟩ := h
          simp [PathLinked, pathEnd, hs, hk]
        · rename_i hk
          split at h
          · simp at h
          · rename_i path0 bm0 hrec
            simp only [Option.some.injEq, Prod.mk.injEq] at h
            obtain ⟨rfl, rfl⟩ := h
            obtain ⟨h1, h2, h3, h4, h5, h6⟩ := ih _ _ _ _ hrec
            have hm : m ∉ path0 := by
              intro hin
              have := (h4 m hin).1
              simp at this
            refine ⟨⟨rfl, h1⟩, List.nodup_cons.2 ⟨hm, h2⟩, ?_, ?_, ?_, h6⟩
            · intro hin
              rcases List.mem_cons.1 hin with e | hin
              · exact hs e.symm
              · exact h3 hin
            · intro x hx
              rcases List.mem_cons.1 hx with rfl | hx'
              · refine ⟨hk, ?_⟩
                rw [h5 _ hm]
                simp
              · obtain ⟨h7, h8⟩ := h4 x hx'
                refine ⟨?_, h8⟩
                have hne : x ≠ m := by rintro rfl; exact hm hx'
                rwa [Function.update_of_ne hne] at h7
            · intro x hx
              rw [List.mem_cons, not_or] at hx
              rw [h5 x hx.2, Function.update_of_ne hx.1]

/-- The search ends: it marks one model in each round. -/
theorem bonePath_total (sc : FScene F) (hp : ∀ m p, (sc.model m).parent = some p → p < sc.count) :
    ∀ (fuel : Nat) (o : Option Nat) (bm : Nat → Option Int), (∀ m, o = some m → m < sc.count) →
      ((List.range sc.count).filter fun m => (bm m).isNone).length + 1 < fuel →
      ∃ r, bonePath sc fuel o bm = some r := by
  intro fuel
  induction fuel with
  | zero => intro o bm _ h; omega
  | succ fuel ih =>
    intro o bm ho hf
    cases o with
    | none => exact ⟨_, rfl⟩
    | some m =>
      have hmc := ho m rfl
      simp only [bonePath]
      split
      · exact ⟨_, rfl⟩
      · split
        · exact ⟨_, rfl⟩
        · rename_i hk
          obtain ⟨r, hr⟩ := ih (sc.model m).parent (Function.update bm m (some 0)) (fun p h => hp m p h) (by
            have hsub : ((List.range sc.count).filter fun x => (Function.update bm m (some 0) x).isNone).length <
                ((List.range sc.count).filter fun x => (bm x).isNone).length := by
              have e : ((List.range sc.count).filter fun x => (Function.update bm m (some 0) x).isNone) =
                  ((List.range sc.count).filter fun x => (bm x).isNone).erase m := by
                rw [List.Nodup.erase_eq_filter (List.nodup_range.filter _), List.filter_filter]
                apply List.filter_congr
                intro x _
                by_cases e : x = m
                · subst e; simp
                · simp [e]
              rw [e, List.length_erase_of_mem (by simp [hmc, hk])]
              have : 0 < ((List.range sc.count).filter fun x => (bm x).isNone).length :=
                List.length_pos_of_mem (a := m) (by simp [hmc, hk])
              omega
            omega)
          rw [hr]
          exact ⟨_, rfl⟩


/-! ### The invariant -/

/-- The calls of `SetVertexWeight` for the bone of model `m` that the deformers of a log (with the ids of
their objects) ask for. -/
def callsOf (m : Nat) (log : List (FDeformer F × Int)) : List (WeightCall F) :=
  log.flatMap fun e =>
    if e.1.target = some m ∧ e.1.weights.length = e.1.indexes.length then
      (e.1.indexes.zip e.1.weights).map fun p => (e.2, p.1 + 1, p.2)
    else []

/-- The last deformer of the log for the model `m`. -/
def lastDeformer (m : Nat) (log : List (FDeformer F × Int)) : Option (FDeformer F) :=
  (log.filter fun e => e.1.target = some m).getLast?.map Prod.fst

section

variable [Add F] [Mul F] [Zero F]

/-- Where the bone of `m` stands: at the origin of the bind matrix of its last deformer, or of the model
itself (world matrix `w`) if it has none. -/
def bonePos (sc : FScene F) (m : Nat) (w : Mat4 F) (log : List (FDeformer F × Int)) : Vec3 F :=
  match lastDeformer m log with
  | some d => (sc.coord.mul d.link).applyTo ⟨0, 0, 0⟩
  | none => (sc.coord.mul w).applyTo ⟨0, 0, 0⟩

/-- The bone `b` at place `i` belongs to the model `m`. -/
structure BoneOk (sc : FScene F) (order : List Nat) (log : List (FDeformer F × Int)) (i m : Nat) (b : Bone F) :
    Prop where
  id : b.id = i + 1
  name : b.name = trimPrefix (sc.model m).name "Model::".toList
  root : (sc.model m).parent = none ∨ (sc.model m).parent = some sc.scene → b.parent = 0
  parent : ∀ p, (sc.model m).parent = some p → p ≠ sc.scene → ∃ j, j < i ∧ order[j]? = some p ∧ b.parent = j + 1
  pos : ∃ w, worldMat sc (sc.count + 1) m = some w ∧ b.pos = bonePos sc m w log
  weights : b.weights = (Mqo.setWeights (newBone 0 [] ⟨0, 0, 0⟩ 0) (callsOf m log)).weights
  weightMap : b.weightMap = (Mqo.setWeights (newBone 0 [] ⟨0, 0, 0⟩ 0) (callsOf m log)).weightMap

/-- `order` are the models with bones, `pend` those marked in the map but still without one. -/
structure BInv (sc : FScene F) (st : FState F) (order pend : List Nat) (log : List (FDeformer F × Int)) : Prop where
  len : st.bones.length = order.length
  nodup : (order ++ pend).Nodup
  scene : sc.scene ∉ order ++ pend
  mapPend : ∀ m ∈ pend, st.boneMap m = some 0
  mapOrder : ∀ (i m : Nat), order[i]? = some m → st.boneMap m = some ((i : Int) + 1)
  mapNone : ∀ m, m ∉ order ++ pend → st.boneMap m = none
  bone : ∀ (i m : Nat) (b : Bone F), order[i]? = some m → st.bones[i]? = some b → BoneOk sc order log i m b
  logged : ∀ e ∈ log, ∀ m, e.1.target = some m → m ∈ order

omit [Add F] [Mul F] [Zero F] in
theorem callsOf_nil (m : Nat) (log : List (FDeformer F × Int)) (h : ∀ e ∈ log, e.1.target ≠ some m) :
    callsOf m log = [] := by
  unfold callsOf
  rw [List.flatMap_eq_nil_iff]
  intro e he
  rw [if_neg (fun hc => h e he hc.1)]

omit [Add F] [Mul F] [Zero F] in
theorem lastDeformer_none (m : Nat) (log : List (FDeformer F × Int)) (h : ∀ e ∈ log, e.1.target ≠ some m) :
    lastDeformer m log = none := by
  unfold lastDeformer
  rw [List.filter_eq_nil_iff.2 (by intro e he; simpa using h e he)]
  rfl

theorem addBones_spec (sc : FScene F) (log : List (FDeformer F × Int)) : ∀ (todo : List Nat) (st st' : FState F)
    (order : List Nat), BInv sc st order todo log →
    (∀ m p, todo.head? = some m → (sc.model m).parent = some p → p ≠ sc.scene → p ∈ order ++ todo) →
    (∀ (i a b : Nat), todo[i]? = some a → todo[i + 1]? = some b → (sc.model b).parent = some a) →
    addBones sc todo st = some st' →
    BInv sc st' (order ++ todo) [] log ∧ st'.objects = st.objects ∧ st'.morphs = st.morphs := by
  intro todo
  induction todo with
  | nil =>
    intro st st' order hinv _ _ h
    simp only [addBones, Option.some.injEq] at h
    subst h
    rw [List.append_nil]
    exact ⟨hinv, rfl, rfl⟩
  | cons m todo ih =>
    intro st st' order hinv hhead hchain h
    simp only [addBones] at h
    split at h
    · simp at h
    · rename_i w hw
      have hmo : m ∉ order := by
        have := hinv.nodup
        rw [List.nodup_append] at this
        exact fun hin => this.2.2 m hin m (by simp) rfl
      have hmt : m ∉ todo := by
        have := hinv.nodup
        rw [List.nodup_append] at this
        exact (List.nodup_cons.1 this.2.1).1
      have hms : m ≠ sc.scene := by
        rintro rfl
        exact hinv.scene (by simp)
      have hnolog : ∀ e ∈ log, e.1.target ≠ some m := fun e he ht => hmo (hinv.logged e he m ht)
      -- the parent of the new bone comes earlier
      have hpar : ∀ p, (sc.model m).parent = some p → p ≠ sc.scene → p ∈ order := by
        intro p hp hps
        have h1 := hhead m p rfl hp hps
        rcases List.mem_append.1 h1 with h1 | h1
        · exact h1
        · exfalso
          -- a cycle: the model `p` is below `m`
          obtain ⟨n, hn⟩ := height_of_worldMat sc _ _ _ hw
          have habove : ∀ (k : Nat) (q : Nat), (m :: todo)[k]? = some q → Above sc m q := by
            intro k
            induction k with
            | zero => intro q hq; simp only [List.getElem?_cons_zero, Option.some.injEq] at hq; subst hq; exact .self _
            | succ k ihk =>
              intro q hq
              have hk : k < (m :: todo).length := by
                have := (List.getElem?_eq_some_iff.1 hq).1
                omega
              have ha : (m :: todo)[k]? = some (m :: todo)[k] := List.getElem?_eq_getElem hk
              exact (ihk _ ha).trans (.up _ q q (hchain k _ q ha hq) (.self q))
          obtain ⟨k, hk, hkp⟩ := List.getElem_of_mem h1
          have hap := habove k p (by rw [List.getElem?_eq_getElem hk, hkp])
          obtain ⟨n', hn', hle, _⟩ := hap.height hn
          cases hn with
          | top _ hp' => rw [hp] at hp'; simp at hp'
          | step _ p' n0 hp' h' =>
            rw [hp] at hp'
            cases hp'
            have := h'.unique hn'
            omega
      have hinv' : BInv sc { st with
          bones := st.bones ++ [newBone ((st.bones.length : Int) + 1) (trimPrefix (sc.model m).name "Model::".toList)
            ((sc.coord.mul w).applyTo ⟨0, 0, 0⟩) (parentBone sc st.boneMap m)]
          boneMap := Function.update st.boneMap m (some ((st.bones.length : Int) + 1)) } (order ++ [m]) todo log := by
        constructor
        · simp [hinv.len]
        · simpa using hinv.nodup
        · simpa using hinv.scene
        · intro x hx
          have hne : x ≠ m := by rintro rfl; exact hmt hx
          simp only [Function.update_of_ne hne]
          exact hinv.mapPend x (List.mem_cons_of_mem _ hx)
        · intro i x hx
          rcases Nat.lt_or_ge i order.length with hi | hi
          · rw [List.getElem?_append_left hi] at hx
            have hne : x ≠ m := by rintro rfl; exact hmo (List.mem_of_getElem? hx)
            simp only [Function.update_of_ne hne]
            exact hinv.mapOrder i x hx
          · rw [List.getElem?_append_right hi] at hx
            have hi' : i = order.length := by
              have := (List.getElem?_eq_some_iff.1 hx).1
              simp at this
              omega
            subst hi'
            simp only [Nat.sub_self, List.getElem?_cons_zero, Option.some.injEq] at hx
            subst hx
            simp [hinv.len]
        · intro x hx
          have hne : x ≠ m := by rintro rfl; exact hx (by simp)
          simp only [Function.update_of_ne hne]
          exact hinv.mapNone x (by simpa using hx)
        · intro i x b hx hb
          rcases Nat.lt_or_ge i order.length with hi | hi
          · rw [List.getElem?_append_left hi] at hx
            simp only at hb
            rw [List.getElem?_append_left (by rw [hinv.len]; exact hi)] at hb
            have hok := hinv.bone i x b hx hb
            exact { hok with
              parent := by
                intro p hp hps
                obtain ⟨j, h1, h2, h3⟩ := hok.parent p hp hps
                exact ⟨j, h1, by rw [List.getElem?_append_left (by omega)]; exact h2, h3⟩ }
          · have hi' : i = order.length := by
              have := (List.getElem?_eq_some_iff.1 hx).1
              simp at this
              omega
            subst hi'
            rw [List.getElem?_append_right (le_refl _)] at hx
            simp only [Nat.sub_self, List.getElem?_cons_zero, Option.some.injEq] at hx
            subst hx
            simp only at hb
            rw [List.getElem?_append_right (by rw [hinv.len]), hinv.len] at hb
            simp only [Nat.sub_self, List.getElem?_cons_zero, Option.some.injEq] at hb
            subst hb
            refine ⟨by simp [newBone, hinv.len], rfl, ?_, ?_, ⟨w, hw, ?_⟩, ?_, ?_⟩
            · rintro (hp | hp)
              · simp [newBone, parentBone, hp]
              · have := hinv.mapNone _ hinv.scene
                simp [newBone, parentBone, hp, this]
            · intro p hp hps
              obtain ⟨j, hj, hjp⟩ := List.getElem_of_mem (hpar p hp hps)
              have hj' : order[j]? = some p := by rw [List.getElem?_eq_getElem hj, hjp]
              refine ⟨j, hj, by rw [List.getElem?_append_left hj]; exact hj', ?_⟩
              simp [newBone, parentBone, hp, hinv.mapOrder j p hj']
            · simp [bonePos, lastDeformer_none m log hnolog, newBone]
            · simp [callsOf_nil m log hnolog, Mqo.setWeights, newBone]
            · simp [callsOf_nil m log hnolog, Mqo.setWeights, newBone]
        · intro e he x hx
          exact List.mem_append_left _ (hinv.logged e he x hx)
      have hnext := ih _ st' (order ++ [m]) hinv' (by
        intro x p hx hp hps
        cases todo with
        | nil => simp at hx
        | cons y ys =>
          simp only [List.head?_cons, Option.some.injEq] at hx
          subst hx
          have := hchain 0 m y rfl rfl
          rw [hp] at this
          cases this
          simp) (by
        intro i a b ha hb
        exact hchain (i + 1) a b (by simpa using ha) (by simpa using hb)) h
      rw [List.append_assoc, List.singleton_append] at hnext
      exact hnext

end


/-! ### One deformer -/

theorem setVertexWeight_congr (a b : Bone F) (hw : a.weights = b.weights) (hm : a.weightMap = b.weightMap)
    (u v : Int) (x : F) : (a.setVertexWeight u v x).weights = (b.setVertexWeight u v x).weights ∧
      (a.setVertexWeight u v x).weightMap = (b.setVertexWeight u v x).weightMap := by
  unfold Bone.setVertexWeight
  rw [hm]
  split <;> simp [hw]

theorem setWeights_congr (calls : List (WeightCall F)) : ∀ (a b : Bone F), a.weights = b.weights →
    a.weightMap = b.weightMap → (Mqo.setWeights a calls).weights = (Mqo.setWeights b calls).weights ∧
      (Mqo.setWeights a calls).weightMap = (Mqo.setWeights b calls).weightMap := by
  induction calls with
  | nil => intro a b hw hm; exact ⟨hw, hm⟩
  | cons c calls ih =>
    intro a b hw hm
    obtain ⟨h1, h2⟩ := setVertexWeight_congr a b hw hm c.1 c.2.1 c.2.2
    exact ih _ _ h1 h2

theorem deformerWeights_eq (d : FDeformer F) (u : Int) (m : Nat) (hd : d.target = some m) (b : Bone F) :
    deformerWeights d u b = Mqo.setWeights b (callsOf m [(d, u)]) := by
  unfold deformerWeights callsOf Mqo.setWeights
  simp only [List.flatMap_cons, List.flatMap_nil, List.append_nil, hd, true_and]
  split
  · rw [List.foldl_map]
  · rfl

theorem setWeights_others (calls : List (WeightCall F)) : ∀ b : Bone F,
    (Mqo.setWeights b calls).id = b.id ∧ (Mqo.setWeights b calls).name = b.name ∧
    (Mqo.setWeights b calls).parent = b.parent ∧ (Mqo.setWeights b calls).pos = b.pos := by
  induction calls with
  | nil => intro b; exact ⟨rfl, rfl, rfl, rfl⟩
  | cons c calls ih =>
    intro b
    obtain ⟨h1, h2, h3, h4⟩ := ih (b.setVertexWeight c.1 c.2.1 c.2.2)
    have e : (b.setVertexWeight c.1 c.2.1 c.2.2).id = b.id ∧ (b.setVertexWeight c.1 c.2.1 c.2.2).name = b.name ∧
        (b.setVertexWeight c.1 c.2.1 c.2.2).parent = b.parent ∧ (b.setVertexWeight c.1 c.2.1 c.2.2).pos = b.pos := by
      unfold Bone.setVertexWeight
      split <;> simp
    unfold Mqo.setWeights at h1 h2 h3 h4 ⊢
    rw [List.foldl_cons, h1, h2, h3, h4]
    exact e

theorem callsOf_append (m : Nat) (l1 l2 : List (FDeformer F × Int)) :
    callsOf m (l1 ++ l2) = callsOf m l1 ++ callsOf m l2 := by
  unfold callsOf
  rw [List.flatMap_append]

theorem setWeights_append (b : Bone F) (c1 c2 : List (WeightCall F)) :
    Mqo.setWeights b (c1 ++ c2) = Mqo.setWeights (Mqo.setWeights b c1) c2 := by
  unfold Mqo.setWeights
  rw [List.foldl_append]

theorem lastDeformer_append (m : Nat) (log : List (FDeformer F × Int)) (d : FDeformer F) (u : Int) :
    lastDeformer m (log ++ [(d, u)]) = if d.target = some m then some d else lastDeformer m log := by
  unfold lastDeformer
  rw [List.filter_append]
  by_cases h : d.target = some m
  · simp [h]
  · simp [h]

section

variable [Add F] [Mul F] [Zero F]

/-- A further deformer for another bone changes nothing. -/
theorem BoneOk.other {sc : FScene F} {order log} {i m : Nat} {b : Bone F} (h : BoneOk sc order log i m b)
    (d : FDeformer F) (u : Int) (hd : d.target ≠ some m) : BoneOk sc order (log ++ [(d, u)]) i m b := by
  have hc : callsOf m (log ++ [(d, u)]) = callsOf m log := by
    rw [callsOf_append, callsOf_nil m [(d, u)] (by simpa using hd), List.append_nil]
  refine ⟨h.id, h.name, h.root, h.parent, ?_, by rw [hc]; exact h.weights, by rw [hc]; exact h.weightMap⟩
  obtain ⟨w, h1, h2⟩ := h.pos
  refine ⟨w, h1, ?_⟩
  rw [h2]
  unfold bonePos
  rw [lastDeformer_append, if_neg hd]

theorem getElem?_pathEnd_linked (sc : FScene F) : ∀ (path : List Nat) (o : Option Nat), PathLinked sc o path →
    (∀ (i a b : Nat), path[i]? = some a → path[i + 1]? = some b → (sc.model a).parent = some b) ∧
    (∀ m, path.getLast? = some m → (sc.model m).parent = pathEnd sc o path) := by
  intro path
  induction path with
  | nil => intro o _; simp
  | cons x xs ih =>
    intro o h
    obtain ⟨h1, h2⟩ := h
    obtain ⟨h3, h4⟩ := ih _ h2
    constructor
    · intro i a b ha hb
      cases i with
      | zero =>
        simp only [List.getElem?_cons_zero, Option.some.injEq] at ha
        subst ha
        cases xs with
        | nil => simp at hb
        | cons y ys =>
          simp only [zero_add, List.getElem?_cons_succ, List.getElem?_cons_zero, Option.some.injEq] at hb
          subst hb
          exact h2.1
      | succ i => exact h3 i a b (by simpa using ha) (by simpa using hb)
    · intro m hm
      cases xs with
      | nil =>
        simp only [List.getLast?_singleton, Option.some.injEq] at hm
        subst hm
        rfl
      | cons y ys =>
        rw [List.getLast?_cons_cons] at hm
        exact h4 m hm

/-- Adding the bones of a path keeps the invariant. -/
theorem addPath_spec (sc : FScene F) (st st1 : FState F) (order : List Nat) (log : List (FDeformer F × Int))
    (hinv : BInv sc st order [] log) (fuel model : Nat) (path : List Nat) (bm : Nat → Option Int)
    (hpath : bonePath sc fuel (some model) st.boneMap = some (path, bm))
    (hadd : addBones sc path.reverse { st with boneMap := bm } = some st1) :
    BInv sc st1 (order ++ path.reverse) [] log ∧ st1.objects = st.objects ∧ st1.morphs = st.morphs := by
  obtain ⟨p1, p2, p3, p4, p5, p6⟩ := bonePath_spec sc _ _ _ _ _ hpath
  obtain ⟨q1, q2⟩ := getElem?_pathEnd_linked sc path (some model) p1
  have hdisj : ∀ m ∈ path, m ∉ order := by
    intro m hm ho
    obtain ⟨i, hi, him⟩ := List.getElem_of_mem ho
    have := hinv.mapOrder i m (by rw [List.getElem?_eq_getElem hi, him])
    rw [(p4 m hm).1] at this
    simp at this
  have hstart : BInv sc { st with boneMap := bm } order path.reverse log := by
    refine ⟨hinv.len, ?_, ?_, ?_, ?_, ?_, hinv.bone, hinv.logged⟩
    · rw [List.nodup_append]
      have hn := hinv.nodup
      rw [List.append_nil] at hn
      refine ⟨hn, List.nodup_reverse.2 p2, ?_⟩
      rintro a ha b hb rfl
      exact hdisj a (by simpa using hb) ha
    · have hs := hinv.scene
      rw [List.append_nil] at hs
      simp only [List.mem_append, List.mem_reverse, not_or]
      exact ⟨hs, p3⟩
    · intro m hm
      exact (p4 m (by simpa using hm)).2
    · intro i m hm
      simp only
      rw [p5 m (fun hin => hdisj m hin (List.mem_of_getElem? hm))]
      exact hinv.mapOrder i m hm
    · intro m hm
      simp only [List.mem_append, List.mem_reverse, not_or] at hm
      simp only
      rw [p5 m hm.2]
      exact hinv.mapNone m (by simpa using hm.1)
  exact addBones_spec sc log path.reverse { st with boneMap := bm } st1 order hstart (by
    intro m p hm hp hps
    rw [List.head?_reverse] at hm
    have he := q2 m hm
    rw [hp] at he
    rcases p6 with e | e | ⟨e, e1, _, e2⟩
    · rw [e] at he; simp at he
    · rw [e] at he
      exact absurd (Option.some.inj he) hps
    · rw [e1] at he
      cases he
      by_contra hno
      have hno' : p ∉ order ∧ p ∉ path := by simpa using hno
      rw [p5 p hno'.2, hinv.mapNone p (by simpa using hno'.1)] at e2
      simp at e2) (by
    intro i a b ha hb
    have hb' := (List.getElem?_eq_some_iff.1 hb).1
    rw [List.length_reverse] at hb'
    rw [List.getElem?_reverse (by omega)] at ha hb
    exact q1 (path.length - 1 - (i + 1)) b a hb (by
      rw [← ha]
      congr 1
      omega)) hadd

theorem convertDeformer_spec (sc : FScene F) (d : FDeformer F) (u : Int) (st st' : FState F) (order : List Nat)
    (log : List (FDeformer F × Int)) (hinv : BInv sc st order [] log) (h : convertDeformer sc d u st = some st') :
    ∃ new, BInv sc st' (order ++ new) [] (log ++ [(d, u)]) ∧
      (∀ a ∈ new, ∃ m, d.target = some m ∧ Above sc a m) ∧
      st'.objects = st.objects ∧ st'.morphs = st.morphs := by
  unfold convertDeformer at h
  split at h
  · rename_i ht
    simp only [Option.some.injEq] at h
    subst h
    refine ⟨[], ?_, by simp, rfl, rfl⟩
    rw [List.append_nil]
    refine { hinv with bone := ?_, logged := ?_ }
    · intro i m b hm hb
      exact (hinv.bone i m b hm hb).other d u (by rw [ht]; simp)
    · intro e he m hm
      rcases List.mem_append.1 he with he | he
      · exact hinv.logged e he m hm
      · simp only [List.mem_singleton] at he
        subst he
        rw [ht] at hm
        simp at hm
  · rename_i model ht
    split at h
    · simp at h
    · rename_i path bm hpath
      obtain ⟨p1, p2, p3, p4, p5, p6⟩ := bonePath_spec sc _ _ _ _ _ hpath
      split at h
      · simp at h
      · rename_i st1 hadd
        obtain ⟨hinv1, hobj, hmor⟩ := addPath_spec sc st st1 order log hinv _ model path bm hpath hadd
        simp only at h
        split at h
        · simp at h
        · rename_i b0 hb0
          simp only [Option.some.injEq] at h
          -- the bone of the model
          have hmem : ∃ j : Nat, (order ++ path.reverse)[j]? = some model := by
            by_contra hno
            have hnin : model ∉ order ++ path.reverse := by
              intro hin
              obtain ⟨j, hj, hjm⟩ := List.getElem_of_mem hin
              exact hno ⟨j, by rw [List.getElem?_eq_getElem hj, hjm]⟩
            have := hinv1.mapNone model (by simpa using hnin)
            rw [this] at hb0
            simp [at?] at hb0
          obtain ⟨j, hj⟩ := hmem
          have hmap := hinv1.mapOrder j model hj
          have hk : (st1.boneMap model).getD 0 - 1 = (j : Int) := by rw [hmap]; simp
          rw [hk] at hb0 h
          have hb1 : st1.bones[j]? = some b0 := by
            unfold at? at hb0
            rw [if_neg (by omega)] at hb0
            simpa using hb0
          have hnd : (order ++ path.reverse).Nodup := by simpa using hinv1.nodup
          refine ⟨path.reverse, ?_, ?_, by rw [← h]; exact hobj, by rw [← h]; exact hmor⟩
          · rw [← h]
            have hjt : (j : Int).toNat = j := by simp
            refine ⟨by simp [hinv1.len], hinv1.nodup, hinv1.scene, hinv1.mapPend, hinv1.mapOrder, hinv1.mapNone, ?_, ?_⟩
            · intro i m b hm hb
              simp only [hjt] at hb
              by_cases hij : i = j
              · subst hij
                rw [hj] at hm
                cases hm
                have hi' := (List.getElem?_eq_some_iff.1 hb1).1
                rw [List.getElem?_set_self hi'] at hb
                simp only [Option.some.injEq] at hb
                subst hb
                have hok := hinv1.bone i model b0 hj hb1
                rw [deformerWeights_eq d u model ht]
                obtain ⟨o1, o2, o3, o4⟩ := setWeights_others (callsOf model [(d, u)])
                  { b0 with pos := (sc.coord.mul d.link).applyTo ⟨0, 0, 0⟩ }
                have hcg := setWeights_congr (callsOf model [(d, u)])
                  { b0 with pos := (sc.coord.mul d.link).applyTo ⟨0, 0, 0⟩ }
                  (Mqo.setWeights (newBone 0 [] ⟨0, 0, 0⟩ 0) (callsOf model log)) hok.weights hok.weightMap
                refine ⟨by rw [o1]; exact hok.id, by rw [o2]; exact hok.name, ?_, ?_, ?_, ?_, ?_⟩
                · rw [o3]; exact hok.root
                · rw [o3]; exact hok.parent
                · obtain ⟨w, hw, _⟩ := hok.pos
                  refine ⟨w, hw, ?_⟩
                  rw [o4]
                  unfold bonePos
                  rw [lastDeformer_append, if_pos ht]
                · rw [callsOf_append, setWeights_append]; exact hcg.1
                · rw [callsOf_append, setWeights_append]; exact hcg.2
              · rw [List.getElem?_set_ne (fun e => hij e.symm)] at hb
                refine (hinv1.bone i m b hm hb).other d u ?_
                rw [ht]
                intro e
                cases e
                apply hij
                have hi' := (List.getElem?_eq_some_iff.1 hm).1
                exact (List.getElem?_inj hi' hnd).1 (by rw [hm, hj])
            · intro e he m hm
              rcases List.mem_append.1 he with he | he
              · exact hinv1.logged e he m hm
              · simp only [List.mem_singleton] at he
                subst he
                rw [ht] at hm
                cases hm
                exact List.mem_of_getElem? hj
          · intro a ha
            exact ⟨model, ht, p1.above a (by simpa using ha)⟩

omit [Zero F] in
theorem worldMat_total (sc : FScene F) : ∀ (n m fuel : Nat), Height sc m n → n < fuel → ∃ w, worldMat sc fuel m = some w := by
  intro n
  induction n with
  | zero =>
    intro m fuel h hf
    cases h with
    | top _ hp =>
      obtain ⟨k, rfl⟩ : ∃ k, fuel = k + 1 := ⟨fuel - 1, by omega⟩
      exact ⟨(sc.model m).matrix, by simp only [worldMat, hp]⟩
  | succ n ih =>
    intro m fuel h hf
    cases h with
    | step _ p _ hp h =>
      obtain ⟨k, rfl⟩ : ∃ k, fuel = k + 1 := ⟨fuel - 1, by omega⟩
      obtain ⟨w, hw⟩ := ih p k h (by omega)
      exact ⟨_, by simp only [worldMat, hp, hw]; rfl⟩

theorem addBones_total (sc : FScene F) : ∀ (todo : List Nat) (st : FState F),
    (∀ m ∈ todo, ∃ n, Height sc m n ∧ n ≤ sc.count) → ∃ st', addBones sc todo st = some st' := by
  intro todo
  induction todo with
  | nil => intro st _; exact ⟨st, rfl⟩
  | cons m todo ih =>
    intro st h
    obtain ⟨n, h1, h2⟩ := h m (by simp)
    obtain ⟨w, hw⟩ := worldMat_total sc n m (sc.count + 1) h1 (by omega)
    simp only [addBones, hw]
    exact ih _ fun m' hm' => h m' (List.mem_cons_of_mem _ hm')

/-- A deformer is converted if its model is not the scene and has a finite height. -/
theorem convertDeformer_total (sc : FScene F) (d : FDeformer F) (u : Int) (st : FState F) (order : List Nat)
    (log : List (FDeformer F × Int)) (hinv : BInv sc st order [] log)
    (hp : ∀ m p, (sc.model m).parent = some p → p < sc.count)
    (hh : ∀ m, ∃ n, Height sc m n ∧ n ≤ sc.count)
    (ht : ∀ m, d.target = some m → m ≠ sc.scene ∧ m < sc.count) : ∃ st', convertDeformer sc d u st = some st' := by
  unfold convertDeformer
  cases hd : d.target with
  | none => exact ⟨_, rfl⟩
  | some model =>
    obtain ⟨hne, hlt⟩ := ht model hd
    obtain ⟨⟨path, bm⟩, hpath⟩ := bonePath_total sc hp (sc.count + 2) (some model) st.boneMap
      (by intro m e; cases e; exact hlt) (by
        have := List.length_filter_le (fun m => (st.boneMap m).isNone) (List.range sc.count)
        rw [List.length_range] at this
        omega)
    obtain ⟨st1, hadd⟩ := addBones_total sc path.reverse { st with boneMap := bm } fun m _ => hh m
    obtain ⟨hinv1, _, _⟩ := addPath_spec sc st st1 order log hinv _ model path bm hpath hadd
    simp only [hpath, hadd]
    have hmem : model ∈ order ++ path.reverse := by
      have h := hpath
      simp only [bonePath] at h
      rw [if_neg hne] at h
      split at h
      · rename_i k hk
        by_contra hno
        have : model ∉ order := fun e => hno (List.mem_append_left _ e)
        rw [hinv.mapNone model (by simpa using this)] at hk
        simp at hk
      · split at h
        · simp at h
        · simp only [Option.some.injEq, Prod.mk.injEq] at h
          rw [← h.1]
          simp
    obtain ⟨j, hj, hjm⟩ := List.getElem_of_mem hmem
    have hmap := hinv1.mapOrder j model (by rw [List.getElem?_eq_getElem hj, hjm])
    have hb : ∃ b, at? st1.bones ((st1.boneMap model).getD 0 - 1) = some b := by
      rw [hmap]
      refine ⟨st1.bones[j]'(by rw [hinv1.len]; exact hj), ?_⟩
      unfold at?
      rw [if_neg (by simp)]
      have : ((some ((j : Int) + 1)).getD 0 - 1).toNat = j := by simp
      rw [this, List.getElem?_eq_getElem]
    obtain ⟨b, hb⟩ := hb
    rw [hb]
    exact ⟨_, rfl⟩

/-- A deformer whose model is the scene itself is a panic. -/
theorem convertDeformer_scene (sc : FScene F) (d : FDeformer F) (u : Int) (st : FState F) (order : List Nat)
    (log : List (FDeformer F × Int)) (hinv : BInv sc st order [] log) (ht : d.target = some sc.scene) :
    convertDeformer sc d u st = none := by
  unfold convertDeformer
  rw [ht]
  have hb : bonePath sc (sc.count + 2) (some sc.scene) st.boneMap = some ([], st.boneMap) := by
    simp [bonePath]
  simp only [hb, List.reverse_nil, addBones]
  rw [hinv.mapNone sc.scene hinv.scene]
  simp [at?]

end

end Verif.Conv
