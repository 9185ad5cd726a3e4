import Verif.Conv.UnityRun
import Verif.Conv.UnitySample

/-! Properties C138 to C145 of the Unity converter (converter/unity2mqo.go). -/

namespace Verif.Conv

open Verif.Geom
open Verif.Mqo (Str Object Face Bone MorphTargetList Material PhysicsShape PhysicsBody)
open Verif.Unity (Trig Mesh builtinMesh)

local instance ratOpsUnity1 : FloatOps ℚ := ⟨id, fun a b => decide (a < b), fun a b => decide (a ≤ b)⟩

variable {F : Type}

/-! ### C138: the tree of objects -/

/-- The references of the built-in meshes and their names (unity/unity_builtin.go:9-16). -/
def builtinTable : List (URef × Str) :=
  [(⟨10202, builtinGUID, 0⟩, "Cube".toList), (⟨10206, builtinGUID, 0⟩, "Cylinder".toList),
   (⟨10207, builtinGUID, 0⟩, "Sphere".toList), (⟨10208, builtinGUID, 0⟩, "Capsule".toList),
   (⟨10209, builtinGUID, 0⟩, "Plane".toList), (⟨10210, builtinGUID, 0⟩, "Quad".toList)]

theorem builtinName_mem (r : URef) : (builtinName r ≠ [] → (r, builtinName r) ∈ builtinTable) ∧
    ∀ n, (r, n) ∈ builtinTable → builtinName r = n ∧ n ≠ [] := by
  obtain ⟨f, g, t⟩ := r
  constructor
  · intro h
    unfold builtinName at h ⊢
    simp only at h ⊢
    split at h
    · rename_i hh
      obtain ⟨rfl, rfl⟩ := hh
      rw [if_pos ⟨rfl, rfl⟩]
      repeat' split at h
      all_goals first
        | exact absurd rfl h
        | (rename_i hf; subst hf; decide)
    · exact absurd rfl h
  · intro n hn
    simp only [builtinTable, List.mem_cons, Prod.mk.injEq, URef.mk.injEq, List.not_mem_nil, or_false] at hn
    rcases hn with ⟨⟨rfl, rfl, rfl⟩, rfl⟩ | ⟨⟨rfl, rfl, rfl⟩, rfl⟩ | ⟨⟨rfl, rfl, rfl⟩, rfl⟩ | ⟨⟨rfl, rfl, rfl⟩, rfl⟩ |
      ⟨⟨rfl, rfl, rfl⟩, rfl⟩ | ⟨⟨rfl, rfl, rfl⟩, rfl⟩ <;> decide

/-- The objects of the document with the ways to their game objects; imported objects have none. -/
structure UTree (sc : UScene F) (tagged : List (Option (List Nat) × Object F)) : Prop where
  /-- there is an object for each way down from a root -/
  paths : ∀ p, (∃ o, (some p, o) ∈ tagged) ↔ IsPath sc p
  /-- the depth of an object is that of its game object -/
  depth : ∀ p o, (some p, o) ∈ tagged → o.depth = (p.length : Int) - 1
  /-- the object of the parent comes before, and nothing between is less deep than the child -/
  child : ∀ A p o B, tagged = A ++ (some p, o) :: B → p.length = 1 ∨
    ∃ A1 op C, A = A1 ++ (some p.dropLast, op) :: C ∧ ∀ e ∈ C, o.depth ≤ e.2.depth
  /-- imported objects follow the object of their game object and are deeper -/
  imported : ∀ A o B, tagged = A ++ (none, o) :: B → ∃ A1 p op C, A = A1 ++ (some p, op) :: C ∧
    (∀ e ∈ C, e.1 = none) ∧ op.depth < o.depth
  /-- children are in the order of their parent, if no list names an object twice -/
  order : sc.roots.Nodup → (∀ k tr, (sc.object k).transform = some tr → (tr.children.filterMap id).Nodup) →
    (tagged.filterMap Prod.fst).Nodup ∧
    (tagged.filterMap Prod.fst).filter (fun p => p.length = 1) = sc.roots.map (fun k => [k]) ∧
    ∀ p tr, IsPath sc p → (sc.object (p.getLastD 0)).transform = some tr →
      (tagged.filterMap Prod.fst).filter (fun q => q.dropLast = p) = (tr.children.filterMap id).map fun c => p ++ [c]

theorem filterMap_tagged (zs : List (UOut F)) : (zs.flatMap tagUnity).filterMap Prod.fst = zs.map Prod.fst := by
  induction zs with
  | nil => rfl
  | cons z zs ih =>
    rw [List.flatMap_cons, List.filterMap_append, ih]
    simp [tagUnity, List.filterMap_cons, List.filterMap_map, Function.comp_def]

theorem mem_tagUnity (zs : List (UOut F)) (p : List Nat) (o : Object F) :
    (some p, o) ∈ zs.flatMap tagUnity ↔ ∃ imp, (p, o, imp) ∈ zs := by
  constructor
  · intro h
    obtain ⟨z, hz, h⟩ := List.mem_flatMap.1 h
    unfold tagUnity at h
    rcases List.mem_cons.1 h with e | e
    · simp only [Prod.mk.injEq, Option.some.injEq] at e
      obtain ⟨rfl, rfl⟩ := e
      exact ⟨z.2.2, hz⟩
    · obtain ⟨o', _, e⟩ := List.mem_map.1 e
      simp at e
  · rintro ⟨imp, hz⟩
    exact List.mem_flatMap.2 ⟨_, hz, by simp [tagUnity]⟩

section

variable [Field F] [DecidableEq F] [FloatOps F]

omit [DecidableEq F] in
theorem start_inv (M : UMath F) (sc : UScene F) (opt : UOptions F) : MatInv M sc opt (UState.start : UState F) :=
  ⟨(fun g i s h => by cases h), (fun i g h => by cases h)⟩

/-- What a conversion did. -/
structure UDone (M : UMath F) (sc : UScene F) (opt : UOptions F) (ffuel fuel : Nat) (r : UState F)
    (zs : List (UOut F)) (ls : List (List (List Nat))) (st : UState F) : Prop where
  paths : List.Forall₂ (fun k l => unityPaths sc fuel [] k = some l) sc.roots ls
  ways : zs.map Prod.fst = ls.flatten
  run : URun M sc opt ffuel UState.start zs st
  result : r = withDummy st

theorem unity_done (M : UMath F) (sc : UScene F) (opt : UOptions F) (ffuel fuel : Nat) (r : UState F)
    (h : unityConvert M sc opt ffuel fuel = some r) : ∃ zs ls st, UDone M sc opt ffuel fuel r zs ls st := by
  obtain ⟨ls, st, h1, h2, h3⟩ := unityConvert_run M sc opt ffuel fuel r h
  obtain ⟨zs, h4, h5⟩ := run_of_fold _ _ _ (start_inv M sc opt) h2
  exact ⟨zs, ls, st, mapM_mem _ _ _ h1, h4, h5, h3⟩

omit [DecidableEq F] [FloatOps F] in
theorem withDummy_rest (st : UState F) : (withDummy st).objects = st.objects ∧ (withDummy st).bodies = st.bodies ∧
    (withDummy st).lights = st.lights ∧ (withDummy st).mat = st.mat ∧ (withDummy st).guidOf = st.guidOf ∧
    st.materials <+: (withDummy st).materials := by
  unfold withDummy
  split
  · rename_i h
    rw [List.length_eq_zero_iff] at h
    exact ⟨rfl, rfl, rfl, rfl, rfl, by rw [h]; exact List.nil_prefix⟩
  · exact ⟨rfl, rfl, rfl, rfl, rfl, List.prefix_refl _⟩

variable {M : UMath F} {sc : UScene F} {opt : UOptions F} {ffuel fuel : Nat} {r st : UState F}
  {zs : List (UOut F)} {ls : List (List (List Nat))}

theorem UDone.objects (h : UDone M sc opt ffuel fuel r zs ls st) : r.objects = (zs.flatMap tagUnity).map Prod.snd := by
  rw [h.result, (withDummy_rest st).1, h.run.objects]
  rfl

omit [Field F] [DecidableEq F] [FloatOps F] in
theorem ways_iff (hf : List.Forall₂ (fun k l => unityPaths sc fuel [] k = some l) sc.roots ls) (p : List Nat) :
    p ∈ ls.flatten ↔ IsPath sc p := by
  constructor
  · intro hp
    obtain ⟨l, hl, hpl⟩ := List.mem_flatten.1 hp
    obtain ⟨k, hk, hkl⟩ := forall₂_mem_right hf l hl
    exact unityPaths_sound sc _ _ _ _ hkl (.root k hk) p hpl
  · intro hp
    induction hp with
    | root k hk =>
      obtain ⟨l, hl, hkl⟩ := forall₂_mem_left hf k hk
      obtain ⟨⟨rest, e, _⟩, _⟩ := unityPaths_head sc _ _ _ _ hkl
      exact List.mem_flatten.2 ⟨l, hl, by rw [e]; simp⟩
    | child p k tr _ ht hk ih =>
      obtain ⟨l, hl, hpl⟩ := List.mem_flatten.1 ih
      obtain ⟨c, _, hc⟩ := forall₂_mem_right hf l hl
      exact List.mem_flatten.2 ⟨l, hl, unityPaths_closed sc _ _ _ _ hc p hpl tr k ht hk⟩

omit [Field F] [DecidableEq F] [FloatOps F] in
theorem isPath_ne {p : List Nat} (h : IsPath sc p) : p ≠ [] := by
  cases h <;> simp

omit [Field F] [DecidableEq F] [FloatOps F] in
theorem ways_below (hf : List.Forall₂ (fun k l => unityPaths sc fuel [] k = some l) sc.roots ls)
    (hr : sc.roots.Nodup) (hnd : ∀ k tr, (sc.object k).transform = some tr → (tr.children.filterMap id).Nodup)
    (p : List Nat) (tr : UTransform F) (hp : IsPath sc p) (htr : (sc.object (p.getLastD 0)).transform = some tr) :
    below p ls.flatten = (tr.children.filterMap id).map fun c => p ++ [c] := by
  obtain ⟨l, hl, hpl⟩ := List.mem_flatten.1 ((ways_iff hf p).2 hp)
  obtain ⟨c, hcm, hc⟩ := forall₂_mem_right hf l hl
  obtain ⟨l', _, h1, h2⟩ := below_flat sc fuel [] p c ((unityPaths_head sc _ _ _ _ hc).2 p hpl) _ _ hf hr hcm
  rw [hc, Option.some.injEq] at h1
  subst h1
  rw [h2, unityPaths_below sc hnd _ _ _ _ hc p hpl, htr]

theorem UDone.step (h : UDone M sc opt ffuel fuel r zs ls st) (p : List Nat) (o : Object F) (imp : List (Object F))
    (hz : (p, o, imp) ∈ zs) : ∃ sa sb, StepOk M sc opt ffuel (sc.object (p.getLastD 0)) ((p.length : Int) - 1)
      (pathMatrix sc opt.convertScale p.dropLast) (pathActive sc p) sa sb o imp ∧ MatExt sb r ∧ MatInv M sc opt r := by
  obtain ⟨sa, sb, h1, h2⟩ := h.run.mem _ hz
  obtain ⟨w1, w2, w3, w4, w5, w6⟩ := withDummy_rest st
  rw [← h.result] at w1 w2 w3 w4 w5 w6
  obtain ⟨i1, i2⟩ := (h.run.inv (start_inv M sc opt)).of_same (st' := r) w4 w5 w6
  exact ⟨sa, sb, h1, h2.trans i2, i1⟩

theorem UDone.tree (h : UDone M sc opt ffuel fuel r zs ls st) : UTree sc (zs.flatMap tagUnity) := by
  constructor
  · intro p
    rw [← ways_iff h.paths, ← h.ways]
    constructor
    · rintro ⟨o, ho⟩
      obtain ⟨imp, hz⟩ := (mem_tagUnity zs p o).1 ho
      exact List.mem_map.2 ⟨_, hz, rfl⟩
    · intro hp
      obtain ⟨z, hz, rfl⟩ := List.mem_map.1 hp
      exact ⟨z.2.1, (mem_tagUnity zs _ _).2 ⟨z.2.2, hz⟩⟩
  · intro p o ho
    obtain ⟨imp, hz⟩ := (mem_tagUnity zs p o).1 ho
    obtain ⟨_, _, hok, _⟩ := h.step p o imp hz
    exact hok.depth
  · intro A p o B hsplit
    obtain ⟨Z1, z, Z2, A', C', k1, k2, k3, k4⟩ := flatMap_split tagUnity (some p, o) B _ A hsplit
    have hA' : A' = [] ∧ z.1 = p ∧ z.2.1 = o := by
      unfold tagUnity at k2
      cases A' with
      | nil =>
        simp only [List.nil_append, List.cons.injEq, Prod.mk.injEq, Option.some.injEq] at k2
        exact ⟨rfl, k2.1.1, k2.1.2⟩
      | cons a A' =>
        simp only [List.cons_append, List.cons.injEq] at k2
        have : (some p, o) ∈ z.2.2.map fun o => ((none : Option (List Nat)), o) := by rw [k2.2]; simp
        obtain ⟨_, _, e⟩ := List.mem_map.1 this
        simp at e
    obtain ⟨rfl, rfl, rfl⟩ := hA'
    obtain ⟨_, _, hok, _⟩ := h.step z.1 z.2.1 z.2.2 (by rw [k1]; simp)
    have hvs : ls.flatten = Z1.map Prod.fst ++ z.1 :: Z2.map Prod.fst := by
      rw [← h.ways, k1]
      simp
    obtain ⟨L1, l, L2, P, Q, q1, q2, q3, q4⟩ := flatten_split _ _ _ _ hvs
    obtain ⟨c, hc, hcl⟩ := forall₂_mem_right h.paths l (by rw [q1]; simp)
    by_cases hP : P = []
    · subst hP
      obtain ⟨⟨rest, e, _⟩, _⟩ := unityPaths_head sc _ _ _ _ hcl
      rw [q2] at e
      simp only [List.nil_append, List.cons.injEq] at e
      left
      rw [e.1]
      rfl
    · right
      obtain ⟨A1, C, e1, e2⟩ := unityPaths_parent sc _ _ _ _ hcl P Q z.1 q2 hP
      have hZ1 : Z1.map Prod.fst = (L1.flatten ++ A1) ++ z.1.dropLast :: C := by rw [q3, e1]; simp
      obtain ⟨Y1, Y2, y1, y2, y3⟩ := List.map_eq_append_iff.1 hZ1
      obtain ⟨y, Y3, y4, y5, y6⟩ := List.map_eq_cons_iff.1 y3
      have hlen : 1 < z.1.length := by
        have h1 : z.1.dropLast ∈ ls.flatten := by rw [hvs, hZ1]; simp
        have := List.length_pos_iff.2 (isPath_ne ((ways_iff h.paths _).1 h1))
        rw [List.length_dropLast] at this
        omega
      refine ⟨Y1.flatMap tagUnity, y.2.1, y.2.2.map (fun o => (none, o)) ++ Y3.flatMap tagUnity, ?_, ?_⟩
      · rw [k3, y1, y4, List.append_nil, List.flatMap_append, List.flatMap_cons]
        simp only [tagUnity, y5, List.cons_append]
      · rw [hok.depth]
        intro e he
        rcases List.mem_append.1 he with he | he
        · obtain ⟨o', ho', rfl⟩ := List.mem_map.1 he
          obtain ⟨_, _, hoky, _⟩ := h.step y.1 y.2.1 y.2.2 (by rw [k1, y1, y4]; simp)
          obtain ⟨i, hi, rfl⟩ := List.getElem_of_mem ho'
          have := (hoky.imported i _ (List.getElem?_eq_getElem hi)).2.1
          rw [y5, List.length_dropLast] at this
          show _ ≤ (y.2.2[i]).depth
          omega
        · obtain ⟨w, hw, hew⟩ := List.mem_flatMap.1 he
          obtain ⟨_, _, hokw, _⟩ := h.step w.1 w.2.1 w.2.2 (by rw [k1, y1, y4]; simp [hw])
          have hd : z.1.length ≤ w.1.length := e2 w.1 (by rw [← y6]; exact List.mem_map_of_mem hw)
          unfold tagUnity at hew
          rcases List.mem_cons.1 hew with rfl | hew
          · simp only
            rw [hokw.depth]
            omega
          · obtain ⟨o', ho', rfl⟩ := List.mem_map.1 hew
            obtain ⟨i, hi, rfl⟩ := List.getElem_of_mem ho'
            have := (hokw.imported i _ (List.getElem?_eq_getElem hi)).2.1
            show _ ≤ (w.2.2[i]).depth
            omega
  · intro A o B hsplit
    obtain ⟨Z1, z, Z2, A', C', k1, k2, k3, k4⟩ := flatMap_split tagUnity (none, o) B _ A hsplit
    obtain ⟨_, _, hok, _⟩ := h.step z.1 z.2.1 z.2.2 (by rw [k1]; simp)
    unfold tagUnity at k2
    cases A' with
    | nil => simp at k2
    | cons a A' =>
      simp only [List.cons_append, List.cons.injEq] at k2
      obtain ⟨rfl, k2⟩ := k2
      have ho : o ∈ z.2.2 := by
        have : ((none : Option (List Nat)), o) ∈ z.2.2.map fun o => ((none : Option (List Nat)), o) := by rw [k2]; simp
        obtain ⟨o', ho', e⟩ := List.mem_map.1 this
        simp only [Prod.mk.injEq, true_and] at e
        rwa [← e]
      obtain ⟨i, hi, rfl⟩ := List.getElem_of_mem ho
      have hd := (hok.imported i _ (List.getElem?_eq_getElem hi)).2.1
      refine ⟨Z1.flatMap tagUnity, z.1, z.2.1, A', k3, ?_, ?_⟩
      · intro e he
        have : e ∈ z.2.2.map fun o => ((none : Option (List Nat)), o) := by rw [k2]; simp [he]
        obtain ⟨o', _, rfl⟩ := List.mem_map.1 this
        rfl
      · rw [hok.depth]
        omega
  · intro hr hnd
    rw [filterMap_tagged, h.ways]
    refine ⟨flat_nodup sc fuel [] (fun k ps => unityPaths_nodup sc hnd _ _ k ps) _ _ h.paths hr, ?_, ?_⟩
    · have e := below_flat_pre sc fuel [] _ _ h.paths
      simp only [List.nil_append] at e
      rw [← e]
      unfold below
      apply List.filter_congr
      intro p hp
      have := List.length_pos_iff.2 (isPath_ne ((ways_iff h.paths p).1 hp))
      rw [decide_eq_decide, ← List.length_eq_zero_iff, List.length_dropLast]
      omega
    · intro p tr hp htr
      exact ways_below h.paths hr hnd p tr hp htr

/-- C138. The objects of the document are the game objects of the scene and what was imported for them: one object
for each way down from a root, numbered from 1 in the order of the document, with depths from which the tree can be
read, the children in their order. -/
theorem unity_tree (M : UMath F) (sc : UScene F) (opt : UOptions F) (ffuel fuel : Nat) (r : UState F)
    (h : unityConvert M sc opt ffuel fuel = some r) :
    ∃ tagged, r.objects = tagged.map Prod.snd ∧ UTree sc tagged ∧
      (∀ (i : Nat) (o : Object F), r.objects[i]? = some o → o.uid = (i : Int) + 1) ∧
      ∀ p o, (some p, o) ∈ tagged → ∀ x, x = sc.object (p.getLastD 0) →
        (x.transform = none ∨ x.mesh = none → o.name = x.name) ∧
        ∀ rf rend, x.transform.isSome = true → x.mesh = some (rf, rend) →
          (∀ n, (rf, n) ∈ builtinTable → o.name = x.name ++ "(".toList ++ n ++ ")".toList) ∧
          ((∀ n, (rf, n) ∉ builtinTable) →
            o.name = if (sc.fbx rf.guid).isSome then x.name ++ "(FBX)".toList else x.name) := by
  obtain ⟨zs, ls, st, hd⟩ := unity_done M sc opt ffuel fuel r h
  refine ⟨_, hd.objects, hd.tree, ?_, ?_⟩
  · intro i o ho
    rw [hd.objects] at ho
    rw [hd.run.ids i o ho]
    simp [UState.start]
  · rintro p o ho x rfl
    obtain ⟨imp, hz⟩ := (mem_tagUnity zs p o).1 ho
    obtain ⟨sa, sb, hok, _, _⟩ := hd.step p o imp hz
    refine ⟨fun hc => (hok.plain hc).2.1, ?_⟩
    intro rf rend htr hm
    obtain ⟨tr, htr⟩ := Option.isSome_iff_exists.1 htr
    constructor
    · intro n hn
      obtain ⟨e1, e2⟩ := (builtinName_mem rf).2 n hn
      rw [(hok.builtin tr rf rend htr hm (by rw [e1]; exact e2)).2.name, e1]
    · intro hno
      have hb : builtinName rf = [] := by
        by_contra hc
        exact hno _ ((builtinName_mem rf).1 hc)
      obtain ⟨_, _, _, hf⟩ := hok.fbx tr rf rend htr hm hb
      cases hfb : sc.fbx rf.guid with
      | none => simpa using (hf.missing hfb).2
      | some fb => simpa using (hf.found fb hfb).1

/-- The objects of the sample: names, depths and ids. The box of the FBX file and what is below it follow the object of
the door. -/
example : sampleUnityResult.map (fun r => r.objects.map fun o => (o.name, o.depth, o.uid)) =
    some [("House".toList, 0, 1), ("Box(Cube)".toList, 1, 2), ("Pole(Cylinder)".toList, 1, 3), ("Door(FBX)".toList, 1, 4),
      ("Box".toList, 2, 5), ("Smile".toList, 3, 6), ("Lid".toList, 3, 7), ("Lamp".toList, 1, 8), ("Tree(FBX)".toList, 0, 9),
      ("Box".toList, 1, 10), ("Smile".toList, 2, 11), ("Lid".toList, 2, 12)] := by decide +kernel

example : sampleUnity.roots.Nodup ∧ ∀ k ∈ [0, 1, 2, 3, 4, 5], ∀ tr, (sampleUnity.object k).transform = some tr →
    (tr.children.filterMap id).Nodup := by
  refine ⟨by decide, ?_⟩
  intro k hk tr htr
  simp only [List.mem_cons, List.not_mem_nil, or_false] at hk
  rcases hk with rfl | rfl | rfl | rfl | rfl | rfl <;> (cases htr; decide)

/-! ### C139: what is visible -/

/-- C139. An object with a mesh is visible exactly if all game objects on its way are active and its renderer is
enabled; an object without mesh if they are active. -/
theorem unity_visible (M : UMath F) (sc : UScene F) (opt : UOptions F) (ffuel fuel : Nat) (r : UState F)
    (h : unityConvert M sc opt ffuel fuel = some r) :
    ∃ tagged, r.objects = tagged.map Prod.snd ∧ UTree sc tagged ∧
      (∀ p o, (some p, o) ∈ tagged → ∀ x, x = sc.object (p.getLastD 0) →
        (x.transform = none ∨ x.mesh = none → (o.visible = true ↔ ∀ k ∈ p, (sc.object k).active = true)) ∧
        ∀ rf rend, x.transform.isSome = true → x.mesh = some (rf, rend) →
          (∀ n, (rf, n) ∈ builtinTable → (o.visible = true ↔ (∀ k ∈ p, (sc.object k).active = true) ∧ rend.enabled = true)) ∧
          ((∀ n, (rf, n) ∉ builtinTable) → o.vertexes = [] ∧ o.faces = [])) ∧
      ∀ A o B, tagged = A ++ (none, o) :: B → ∃ A1 p op C rf rend, A = A1 ++ (some p, op) :: C ∧ (∀ e ∈ C, e.1 = none) ∧
        (sc.object (p.getLastD 0)).mesh = some (rf, rend) ∧
        (o.visible = true ↔ (∀ k ∈ p, (sc.object k).active = true) ∧ rend.enabled = true) := by
  obtain ⟨zs, ls, st, hd⟩ := unity_done M sc opt ffuel fuel r h
  have hact : ∀ p, pathActive sc p = true ↔ ∀ k ∈ p, (sc.object k).active = true := by
    intro p
    simp [pathActive]
  refine ⟨_, hd.objects, hd.tree, ?_, ?_⟩
  · rintro p o ho x rfl
    obtain ⟨imp, hz⟩ := (mem_tagUnity zs p o).1 ho
    obtain ⟨sa, sb, hok, _, _⟩ := hd.step p o imp hz
    refine ⟨fun hc => by rw [(hok.plain hc).1, hact], ?_⟩
    intro rf rend htr hm
    obtain ⟨tr, htr⟩ := Option.isSome_iff_exists.1 htr
    constructor
    · intro n hn
      obtain ⟨e1, e2⟩ := (builtinName_mem rf).2 n hn
      rw [(hok.builtin tr rf rend htr hm (by rw [e1]; exact e2)).2.visible, Bool.and_eq_true, hact]
    · intro hno
      have hb : builtinName rf = [] := by
        by_contra hc
        exact hno _ ((builtinName_mem rf).1 hc)
      obtain ⟨_, h2, h3, _⟩ := hok.fbx tr rf rend htr hm hb
      exact ⟨h2, h3⟩
  · intro A o B hsplit
    obtain ⟨Z1, z, Z2, A', C', k1, k2, k3, k4⟩ := flatMap_split tagUnity (none, o) B _ A hsplit
    obtain ⟨_, _, hok, _⟩ := hd.step z.1 z.2.1 z.2.2 (by rw [k1]; simp)
    unfold tagUnity at k2
    cases A' with
    | nil => simp at k2
    | cons a A' =>
      simp only [List.cons_append, List.cons.injEq] at k2
      obtain ⟨rfl, k2⟩ := k2
      have ho : o ∈ z.2.2 := by
        have : ((none : Option (List Nat)), o) ∈ z.2.2.map fun o => ((none : Option (List Nat)), o) := by rw [k2]; simp
        obtain ⟨o', ho', e⟩ := List.mem_map.1 this
        simp only [Prod.mk.injEq, true_and] at e
        rwa [← e]
      obtain ⟨i, hi, rfl⟩ := List.getElem_of_mem ho
      obtain ⟨_, _, tr, rf, rend, _, hm, _, _, hv⟩ := hok.imported i _ (List.getElem?_eq_getElem hi)
      refine ⟨Z1.flatMap tagUnity, z.1, z.2.1, A', rf, rend, k3, ?_, hm, ?_⟩
      · intro e he
        have : e ∈ z.2.2.map fun o => ((none : Option (List Nat)), o) := by rw [k2]; simp [he]
        obtain ⟨o', _, rfl⟩ := List.mem_map.1 this
        rfl
      · rw [hv, Bool.and_eq_true, hact]

/-- The renderer of the door is switched off and so is the lamp. -/
example : sampleUnityResult.map (fun r => r.objects.map fun o => o.visible) =
    some [true, true, true, true, false, false, false, false, true, true, true, true] := by decide +kernel

/-- C139, not intended: the converter of FBX files hides the objects of blend shapes, the one of Unity scenes shows
them with the others. -/
theorem unity_shapes_hidden_false :
    (skinResult.map fun r => r.objects.filterMap fun o => if o.name = "Smile".toList then some o.visible else none) =
      some [false] ∧
    ∃ r, sampleUnityResult = some r ∧
      (∃ l ∈ r.morphs, ∃ t ∈ l.target, t.name = "Smile".toList) ∧
      ∃ o ∈ r.objects, o.name = "Smile".toList ∧ o.visible = true := by
  refine ⟨by decide +kernel, ?_⟩
  have h : (sampleUnityResult.map fun r => (r.morphs.any fun l => l.target.any fun t => t.name = "Smile".toList) &&
      r.objects.any fun o => decide (o.name = "Smile".toList) && o.visible) = some true := by decide +kernel
  cases hr : sampleUnityResult with
  | none => rw [hr] at h; cases h
  | some r =>
    rw [hr] at h
    simp only [Option.map_some, Option.some.injEq, Bool.and_eq_true, List.any_eq_true, decide_eq_true_eq] at h
    exact ⟨r, rfl, h.1, h.2⟩

end

end Verif.Conv
