import Verif.Unity.SceneValues
import Mathlib.Algebra.Field.Rat

/-! Properties of loaded Unity scenes. A scene is loaded into an empty heap and has the number 0. -/

namespace Verif.Unity

open Verif.Geom

variable {F : Type} [Field F]

set_option linter.unusedSectionVars false

/-! ### Where the instances are -/

/-- The modifications and the documents behind a path of ids of instances: an instance in the file, an instance in its
prefab, and so on. -/
def docsAt (assets : Str → Option (List (Int × Doc F))) : List (Modification F) → List (Int × Doc F) → List Int →
    Option (List (Modification F) × List (Int × Doc F))
  | mods, docs, [] => some (mods, docs)
  | _, docs, k :: ks =>
    match docs.find? fun d => decide (d.1 = k) with
    | some (_, .prefab p) =>
      match prefabDocs assets p with
      | some (_, ds) => docsAt assets p.mods ds ks
      | none => none
    | _ => none

/-- The loaded scene behind a path of ids of instances. -/
def sceneAt (h : Heap F) : Nat → List Int → Option Nat
  | s, [] => some s
  | s, k :: ks =>
    match h.elem (s, k) with
    | some (.prefab s') => sceneAt h s' ks
    | _ => none

theorem docsAt_cons {assets : Str → Option (List (Int × Doc F))} {mods : List (Modification F)} {docs : List (Int × Doc F)}
    {k : Int} {ks : List Int} {x} (h : docsAt assets mods docs (k :: ks) = some x) :
    ∃ p gd ds, (k, Doc.prefab p) ∈ docs ∧ (docs.find? fun d => decide (d.1 = k)) = some (k, Doc.prefab p) ∧ prefabDocs assets p = some (gd, ds) ∧ docsAt assets p.mods ds ks = some x := by
  simp only [docsAt] at h
  split at h
  · rename_i k' p hf
    have hk : k' = k := by simpa using List.find?_some hf
    subst hk
    split at h
    · rename_i gd ds hp
      exact ⟨p, gd, ds, List.mem_of_find?_eq_some hf, hf, hp, h⟩
    · cases h
  · cases h

theorem shows_path {trunc : F → Int} {assets : Str → Option (List (Int × Doc F))} {h : Heap F} : ∀ (path : List Int) (s hi : Nat)
    (mods mods' : List (Modification F)) (docs docs' : List (Int × Doc F)), Shows trunc assets h s hi mods docs →
    docsAt assets mods docs path = some (mods', docs') →
    ∃ s' hi', sceneAt h s path = some s' ∧ Shows trunc assets h s' hi' mods' docs' ∧ s ≤ s' ∧ s' < hi ∧ (path ≠ [] → s < s') := by
  intro path
  induction path with
  | nil =>
    intro s hi mods mods' docs docs' w hd
    cases hd
    exact ⟨s, hi, rfl, w, Nat.le_refl _, w.lt, fun h => absurd rfl h⟩
  | cons k ks ih =>
    intro s hi mods mods' docs docs' w hd
    obtain ⟨p, gd, ds, h1, _, h2, h3⟩ := docsAt_cons hd
    cases w with
    | mk _ _ _ _ f g range rootsIn own absent missing place sub apart =>
      obtain ⟨a, b, c, d⟩ := place k p gd ds h1 h2
      obtain ⟨s', hi', i1, i2, i3, i4, _⟩ := ih (f k) (g k) p.mods mods' ds docs' (sub k p gd ds h1 h2) h3
      refine ⟨s', hi', ?_, i2, by omega, by omega, fun _ => by omega⟩
      simp only [sceneAt, a]
      exact i1

theorem shows_apart {trunc : F → Int} {assets : Str → Option (List (Int × Doc F))} {h : Heap F} : ∀ (path path' : List Int)
    (s hi : Nat) (mods : List (Modification F)) (docs : List (Int × Doc F)), Shows trunc assets h s hi mods docs →
    (docsAt assets mods docs path).isSome = true → (docsAt assets mods docs path').isSome = true →
    sceneAt h s path = sceneAt h s path' → path = path' := by
  intro path
  induction path with
  | nil =>
    intro path' s hi mods docs w h1 h2 h3
    obtain ⟨⟨m2, d2⟩, h2⟩ := Option.isSome_iff_exists.1 h2
    obtain ⟨s', hi', i1, i2, i3, i4, i5⟩ := shows_path path' s hi mods m2 docs d2 w h2
    by_contra hne
    have := i5 (fun hc => hne hc.symm)
    rw [i1] at h3
    simp only [sceneAt, Option.some.injEq] at h3
    omega
  | cons k ks ih =>
    intro path' s hi mods docs w h1 h2 h3
    obtain ⟨⟨m1, d1⟩, h1⟩ := Option.isSome_iff_exists.1 h1
    obtain ⟨⟨m2, d2⟩, h2⟩ := Option.isSome_iff_exists.1 h2
    cases path' with
    | nil =>
      obtain ⟨s', hi', i1, i2, i3, i4, i5⟩ := shows_path (k :: ks) s hi mods m1 docs d1 w h1
      have := i5 (by simp)
      rw [i1] at h3
      simp only [sceneAt, Option.some.injEq] at h3
      omega
    | cons k' ks' =>
      obtain ⟨p, gd, ds, a1, af, a2, a3⟩ := docsAt_cons h1
      obtain ⟨p', gd', ds', b1, bf, b2, b3⟩ := docsAt_cons h2
      cases w with
      | mk _ _ _ _ f g range rootsIn own absent missing place sub apart =>
        have pa := place k p gd ds a1 a2
        have pb := place k' p' gd' ds' b1 b2
        simp only [sceneAt, pa.1, pb.1] at h3
        by_cases hk : k = k'
        · subst hk
          rw [af] at bf
          cases bf
          rw [a2] at b2
          cases b2
          rw [ih ks' (f k) (g k) p.mods ds (sub k p gd ds a1 a2) (by rw [a3]; rfl) (by rw [b3]; rfl) h3]
        · exfalso
          obtain ⟨s1, hi1, i1, _, i3, i4, _⟩ := shows_path ks (f k) (g k) p.mods m1 ds d1 (sub k p gd ds a1 a2) a3
          obtain ⟨s2, hi2, j1, _, j3, j4, _⟩ := shows_path ks' (f k') (g k') p'.mods m2 ds' d2 (sub k' p' gd' ds' b1 b2) b3
          rw [i1, j1] at h3
          cases h3
          have := apart k p k' p' a1 (by rw [a2]; rfl) b1 (by rw [b2]; rfl) hk
          omega

/-! ### Files used by the examples -/

/-- A reference into the same file. -/
def here (k : Int) : Ref := ⟨k, [], 0⟩

/-- A transform of the file. -/
def plainTransform (object father : Int) (children : List Int) : Transform ℚ :=
  ⟨here object, none, none, here father, children.map here, ⟨1, 2, 3⟩, ⟨0, 0, 0, 1⟩, ⟨1, 1, 1⟩, []⟩

/-- A prefab: a lamp with a bulb. -/
def lampDocs : List (Int × Doc ℚ) :=
  [(10, .object ⟨"lamp".toList, 1, [here 11], none, none⟩), (11, .transform (plainTransform 10 0 [13])),
   (12, .object ⟨"bulb".toList, 1, [here 13, here 14], none, none⟩), (13, .transform (plainTransform 12 11 [])),
   (14, .renderer 1 [none, none])]

/-- A prefab that contains a lamp. -/
def deskDocs : List (Int × Doc ℚ) :=
  [(20, .object ⟨"desk".toList, 1, [here 21], none, none⟩), (21, .transform (plainTransform 20 0 [])),
   (30, .prefab ⟨[], some (here 21), some ⟨100, "lamp".toList, 3⟩⟩)]

/-- The prefabs of the examples. -/
def sampleAssets (g : Str) : Option (List (Int × Doc ℚ)) :=
  if g = "lamp".toList then some lampDocs else if g = "desk".toList then some deskDocs else none

/-- A change of a number. -/
def setNumber (k : Int) (name field : String) (x : ℚ) : Modification ℚ :=
  ⟨some ⟨k, "lamp".toList, 3⟩, name.toList, .field field.toList, .real x, none⟩

/-- A scene: a room with two lamps in it, a desk and a removed prefab. -/
def roomDocs : List (Int × Doc ℚ) :=
  [(1, .object ⟨"room".toList, 1, [here 2], none, none⟩), (2, .transform (plainTransform 1 0 [4])),
   (3, .object ⟨"wall".toList, 1, [here 4], none, none⟩), (4, .transform (plainTransform 3 2 [])),
   (5, .prefab ⟨[setNumber 11 "m_LocalPosition" "x" 7, setNumber 11 "m_LocalPosition" "x" 8,
      ⟨some ⟨12, "lamp".toList, 3⟩, "m_Name".toList, .none, .text "red".toList, none⟩,
      ⟨some ⟨14, "lamp".toList, 3⟩, "m_Materials".toList, .data 1, .null, some ⟨9, "red".toList, 2⟩⟩],
      some (here 2), some ⟨100, "lamp".toList, 3⟩⟩),
   (6, .prefab ⟨[], some (here 2), some ⟨100, "lamp".toList, 3⟩⟩),
   (7, .prefab ⟨[], some (here 0), some ⟨100, "desk".toList, 3⟩⟩),
   (8, .prefab ⟨[], some (here 0), some ⟨100, "gone".toList, 3⟩⟩)]

/-- The number of an example is rounded down. -/
def sampleTrunc (x : ℚ) : Int := x.num / x.den

/-- The loaded scene of the examples. -/
def roomScene : Option (Heap ℚ) := loadScene sampleTrunc sampleAssets 5 "room".toList roomDocs emptyHeap

theorem sampleAssets_nodup : ∀ g ds, sampleAssets g = some ds → (ds.map Prod.fst).Nodup := by
  intro g ds h
  unfold sampleAssets at h
  split at h
  · cases h
    decide
  · split at h
    · cases h
      decide
    · cases h

theorem roomDocs_nodup : (roomDocs.map Prod.fst).Nodup := by decide

theorem roomScene_some : roomScene.isSome = true := by decide +kernel

/-! ### Values -/

/-- What an instance shows of the documents of its prefab. -/
structure InstanceValues (trunc : F → Int) (h : Heap F) (s : Nat) (mods : List (Modification F))
    (docs : List (Int × Doc F)) : Prop where
  objects : ∀ j o, (j, Doc.object o) ∈ docs → h.object (s, j) = some { o with
    name := changed mods j "m_Name" (fun _ => true) (fun m => m.value.string) o.name
    active := changed mods j "m_IsActive" (fun _ => true) (fun m => m.value.integer trunc) o.active }
  transforms : ∀ j t, (j, Doc.transform t) ∈ docs → ∃ u, h.transform (s, j) = some u ∧
    u.position = ⟨changed mods j "m_LocalPosition" (comp "x") (fun m => m.value.number) t.position.x,
      changed mods j "m_LocalPosition" (comp "y") (fun m => m.value.number) t.position.y,
      changed mods j "m_LocalPosition" (comp "z") (fun m => m.value.number) t.position.z⟩ ∧
    u.rotation = ⟨changed mods j "m_LocalRotation" (comp "x") (fun m => m.value.number) t.rotation.x,
      changed mods j "m_LocalRotation" (comp "y") (fun m => m.value.number) t.rotation.y,
      changed mods j "m_LocalRotation" (comp "z") (fun m => m.value.number) t.rotation.z,
      changed mods j "m_LocalRotation" (comp "w") (fun m => m.value.number) t.rotation.w⟩ ∧
    u.scale = ⟨changed mods j "m_LocalScale" (comp "x") (fun m => m.value.number) t.scale.x,
      changed mods j "m_LocalScale" (comp "y") (fun m => m.value.number) t.scale.y,
      changed mods j "m_LocalScale" (comp "z") (fun m => m.value.number) t.scale.z⟩ ∧
    u.gameObject = t.gameObject ∧ u.source = t.source ∧ u.inst = t.inst ∧ u.children = t.children
  renderers : ∀ j e ms, (j, Doc.renderer e ms) ∈ docs → ∃ ms', h.elem (s, j) = some (.renderer
      (changed mods j "m_Enabled" (fun _ => true) (fun m => m.value.integer trunc) e) ms') ∧ ms'.length = ms.length ∧
    ∀ i x, ms[i]? = some x → ms'[i]? =
      some (changed mods j "m_Materials" (fun r => decide (r = .data i)) (fun m => m.reference) x)
  others : ∀ j c, (j, Doc.other c) ∈ docs → h.elem (s, j) = some (.other (changedComp trunc mods j c))
  nothing : ∀ j, j ∉ docs.map Prod.fst → h.elem (s, j) = none

theorem shows_values {trunc : F → Int} {assets : Str → Option (List (Int × Doc F))} {h : Heap F} {s hi : Nat}
    {mods : List (Modification F)} {docs : List (Int × Doc F)} (w : Shows trunc assets h s hi mods docs) :
    InstanceValues trunc h s mods docs := by
  cases w with
  | mk _ _ _ _ f g range rootsIn own absent missing place sub apart =>
    have others : ∀ j c, (j, Doc.other c) ∈ docs → h.elem (s, j) =
        some (.other ((modsFor mods j).foldl (fun c m => modifyComp trunc m c) c)) := by
      intro j c hj
      obtain ⟨x, h1, h2⟩ := own j _ _ hj rfl
      rw [modifyEach_other] at h2
      cases x <;> simp only [Elem.Like, reduceCtorEq] at h2
      rw [h1, h2]
    refine ⟨?_, ?_, ?_, fun j c hj => by rw [others j _ hj, comp_values], absent⟩
    · intro j o ho
      obtain ⟨e, h1, h2⟩ := own j _ _ ho rfl
      rw [modifyEach_object] at h2
      cases e <;> simp only [Elem.Like, reduceCtorEq] at h2
      rw [object_elem, h1, h2, object_values]
    · intro j t ht
      obtain ⟨e, h1, h2⟩ := own j _ _ ht rfl
      rw [modifyEach_transform] at h2
      cases e <;> simp only [Elem.Like, reduceCtorEq] at h2
      obtain ⟨fa, ad, rfl⟩ := h2
      obtain ⟨⟨p1, p2, p3⟩, ⟨r1, r2, r3, r4⟩, s1, s2, s3⟩ := transform_values mods j { t with added := [] }
      obtain ⟨l1, l2, l3, l4⟩ := transform_links (modsFor mods j) { t with added := [] }
      refine ⟨_, (transform_elem _ _ _).2 h1, ?_, ?_, ?_, l1, l2, l3, l4⟩
      · rw [← p1, ← p2, ← p3]
      · rw [← r1, ← r2, ← r3, ← r4]
      · rw [← s1, ← s2, ← s3]
    · intro j e ms he
      obtain ⟨x, h1, h2⟩ := own j _ _ he rfl
      have hr := modifyEach_renderer trunc (modsFor mods j) (e, ms)
      simp only at hr
      rw [hr] at h2
      cases x <;> simp only [Elem.Like, reduceCtorEq] at h2
      obtain ⟨v1, v2, v3⟩ := renderer_values trunc mods j e ms
      rw [h1, h2, v1]
      exact ⟨_, rfl, v2, v3⟩

/-- C147. What the value of a change of `m_IsActive` means: a whole number is itself, and a value that is no number
means that the object is not active. -/
theorem active_values (trunc : F → Int) (h : Heap F) (s : Nat) (mods : List (Modification F)) (docs : List (Int × Doc F))
    (v : InstanceValues trunc h s mods docs) (j : Int) (o : GameObject) (ho : (j, Doc.object o) ∈ docs)
    (m : Modification F) (a b : List (Modification F)) (hm : mods = a ++ m :: b) (ht : ∃ r, m.target = some r ∧ r.fileID = j)
    (hj : j ≠ 0) (hn : m.name = "m_IsActive".toList)
    (hb : ∀ m' ∈ b, m'.name ≠ "m_IsActive".toList) :
    (∀ n, m.value = .int n → ∃ u, h.object (s, j) = some u ∧ u.active = n) ∧
    (∀ x, m.value = .real x → ∃ u, h.object (s, j) = some u ∧ u.active = trunc x) ∧
    ((∀ n, m.value ≠ .int n) → (∀ x, m.value ≠ .real x) → ∃ u, h.object (s, j) = some u ∧ u.active = 0) := by
  have hu := v.objects j o ho
  have hc : changed mods j "m_IsActive" (fun _ => true) (fun m => m.value.integer trunc) o.active =
      m.value.integer trunc := by
    unfold changed
    obtain ⟨r, hr, hrj⟩ := ht
    have h1 : (targets m j && (decide (m.name = "m_IsActive".toList) && true)) = true := by
      rw [hn]
      simp [targets, hr, hrj, hj]
    have h2 : (b.filter fun m => targets m j && (decide (m.name = "m_IsActive".toList) && true)) = [] := by
      rw [List.filter_eq_nil_iff]
      intro x hx
      rw [decide_eq_false (hb x hx)]
      simp
    have h3 : ((a ++ m :: b).filter fun m => targets m j && (decide (m.name = "m_IsActive".toList) && true)) =
        (a.filter fun m => targets m j && (decide (m.name = "m_IsActive".toList) && true)) ++ [m] := by
      rw [List.filter_append, List.filter_cons, if_pos h1, h2]
    simp only [hm, h3, List.getLast?_append, List.getLast?_singleton, Option.some_or]
  rw [hc] at hu
  refine ⟨fun n e => ⟨_, hu, ?_⟩, fun x e => ⟨_, hu, ?_⟩, fun h1 h2 => ⟨_, hu, ?_⟩⟩
  · simp only [e, Value.integer]
  · simp only [e, Value.integer]
  · cases e : m.value with
    | int n => exact absurd e (h1 n)
    | real x => exact absurd e (h2 x)
    | _ => simp only [Value.integer]

/-- C147. In a loaded scene every instance of a prefab, at any depth, has exactly the elements of the prefab. Each
property has the value of the last modification of the instance that names it, and else the value in the prefab. The
scene itself (empty path) has the values of its file. Partial: values are read as the program reads them, so a number given
as a name counts as the empty text (`number_name_false`); and files have different ids. -/
theorem instance_values_partial (trunc : F → Int) (assets : Str → Option (List (Int × Doc F)))
    (ha : ∀ g ds, assets g = some ds → (ds.map Prod.fst).Nodup) (fuel : Nat) (guid : Str) (docs : List (Int × Doc F))
    (hd : (docs.map Prod.fst).Nodup) (h : Heap F) (hl : loadScene trunc assets fuel guid docs emptyHeap = some h)
    (path : List Int) (mods : List (Modification F)) (ds : List (Int × Doc F))
    (hp : docsAt assets [] docs path = some (mods, ds)) :
    ∃ s, sceneAt h 0 path = some s ∧ InstanceValues trunc h s mods ds := by
  have L := loadScene_ok trunc assets ha fuel guid docs emptyHeap h emptyHeap_ok hd hl
  obtain ⟨s, hi, h1, h2, _⟩ := shows_path path 0 _ [] mods docs ds L.shows hp
  exact ⟨s, h1, shows_values h2⟩

/-- The hypotheses are met by a scene with instances at two depths; modified and other values are there. -/
example : (docsAt sampleAssets [] roomDocs [7, 30]).isSome = true ∧ (docsAt sampleAssets [] roomDocs [5]).isSome = true ∧
    roomScene.map (fun h => (sceneAt h 0 [5], sceneAt h 0 [6], sceneAt h 0 [7], sceneAt h 0 [7, 30])) =
      some (some 1, some 2, some 3, some 4) ∧
    roomScene.map (fun h => ((h.object (1, 12)).map (·.name), (h.object (2, 12)).map (·.name),
      (h.object (4, 12)).map (·.name))) = some (some "red".toList, some "bulb".toList, some "bulb".toList) ∧
    roomScene.map (fun h => ((h.transform (1, 11)).map (·.position.x), (h.transform (1, 11)).map (·.position.y),
      (h.transform (2, 11)).map (·.position.x))) = some (some 8, some 2, some 1) := by
  refine ⟨by decide +kernel, by decide +kernel, by decide +kernel, by decide +kernel, by decide +kernel⟩

/-- A prefab with a light and a scene that changes it. -/
def torchAssets : Str → Option (List (Int × Doc ℚ)) := fun g =>
  if g = "torch".toList then some [(10, .object ⟨"torch".toList, 1, [here 11, here 15], none, none⟩),
    (11, .transform (plainTransform 10 0 [])), (15, .other (.light 2 ⟨1, 1, 1, 1⟩ 3 10 30 20))] else none

/-- The changed light is there. -/
example : ((loadScene sampleTrunc torchAssets 3 [] [(5, .prefab ⟨[setNumber 15 "m_Color" "g" 7, setNumber 15 "m_Range" "" 8,
      setNumber 15 "m_Color" "g" 6], some (here 0), some ⟨100, "torch".toList, 3⟩⟩)] emptyHeap).bind fun h => h.elem (1, 15)) =
    some (.other (.light 2 ⟨1, 6, 1, 1⟩ 3 8 30 20)) := rfl

/-- A scene with a lamp whose bulb is switched by `v`. -/
def bulbDocs (v : Value ℚ) : List (Int × Doc ℚ) :=
  [(5, .prefab ⟨[⟨some ⟨12, "lamp".toList, 3⟩, "m_IsActive".toList, .none, .int 1, none⟩,
    ⟨some ⟨12, "lamp".toList, 3⟩, "m_IsActive".toList, .none, v, none⟩],
    some (here 0), some ⟨100, "lamp".toList, 3⟩⟩)]

/-- The hypotheses of `active_values` are met by the bulb of this scene, and the values are as it says. -/
example : docsAt sampleAssets [] (bulbDocs .null) [5] =
      some ([⟨some ⟨12, "lamp".toList, 3⟩, "m_IsActive".toList, .none, .int 1, none⟩] ++
        ⟨some ⟨12, "lamp".toList, 3⟩, "m_IsActive".toList, .none, .null, none⟩ :: [], lampDocs) ∧
    ((loadScene sampleTrunc sampleAssets 3 [] (bulbDocs .null) emptyHeap).map fun h => (h.object (1, 12)).map (·.active)) =
      some (some 0) ∧
    ((loadScene sampleTrunc sampleAssets 3 [] (bulbDocs (.real (5/2))) emptyHeap).map
      fun h => (h.object (1, 12)).map (·.active)) = some (some 2) := by
  refine ⟨rfl, by decide +kernel, by decide +kernel⟩

/-- C147. Different instances, at any depth, are different scenes: no element is shared. -/
theorem instances_apart (trunc : F → Int) (assets : Str → Option (List (Int × Doc F)))
    (ha : ∀ g ds, assets g = some ds → (ds.map Prod.fst).Nodup) (fuel : Nat) (guid : Str) (docs : List (Int × Doc F))
    (hd : (docs.map Prod.fst).Nodup) (h : Heap F) (hl : loadScene trunc assets fuel guid docs emptyHeap = some h)
    (path path' : List Int) (h1 : (docsAt assets [] docs path).isSome = true)
    (h2 : (docsAt assets [] docs path').isSome = true) (hs : sceneAt h 0 path = sceneAt h 0 path') : path = path' :=
  shows_apart path path' 0 _ [] docs (loadScene_ok trunc assets ha fuel guid docs emptyHeap h emptyHeap_ok hd hl).shows h1 h2 hs

/-- The hypotheses are met. -/
example : (docsAt sampleAssets [] roomDocs [5]).isSome = true ∧ (docsAt sampleAssets [] roomDocs [7, 30]).isSome = true ∧
    roomScene.map (fun h => decide (sceneAt h 0 [5] = sceneAt h 0 [7, 30])) = some false := by
  refine ⟨by decide +kernel, by decide +kernel, by decide +kernel⟩

/-! ### Roots -/

theorem loaded_object {trunc : F → Int} {assets : Str → Option (List (Int × Doc F))} {guid : Str} {docs : List (Int × Doc F)}
    {h : Heap F} (L : Loaded trunc assets guid docs emptyHeap h) (k : Int) (o : GameObject) (ho : (k, Doc.object o) ∈ docs) :
    h.object (0, k) = some o := by
  have := (shows_values L.shows).objects k o ho
  exact this

theorem isRoot_iff (h : Heap F) (r : Ptr) : isRoot h r = true ↔ ∃ tr t o, objectTransform h r = some tr ∧
    h.transform tr = some t ∧ h.object r = some o ∧ t.father.valid = false ∧ validRef o.source = false := by
  unfold isRoot
  cases objectTransform h r with
  | none => simp
  | some tr =>
    cases ht : h.transform tr <;> cases ho : h.object r <;> simp [ht]

/-- C148. The root objects of a loaded scene. An object of the file is a root if it is not a placeholder and its
transform has no father. The root of an instance is a root if the instance has no parent. There are no others. They are
in the order of the file. -/
theorem scene_roots (trunc : F → Int) (assets : Str → Option (List (Int × Doc F)))
    (ha : ∀ g ds, assets g = some ds → (ds.map Prod.fst).Nodup) (fuel : Nat) (guid : Str) (docs : List (Int × Doc F))
    (hd : (docs.map Prod.fst).Nodup) (h : Heap F) (hl : loadScene trunc assets fuel guid docs emptyHeap = some h) :
    (∀ k o, (k, Doc.object o) ∈ docs → ((0, k) ∈ h.roots 0 ↔ validRef o.source = false ∧
      ∃ tr t, objectTransform h (0, k) = some tr ∧ h.transform tr = some t ∧ t.father.valid = false)) ∧
    (∀ k p s root, (k, Doc.prefab p) ∈ docs → h.elem (0, k) = some (.prefab s) → (h.roots s).head? = some root →
      (root ∈ h.roots 0 ↔ ∃ par, p.parent = some par ∧ par.fileID = 0)) ∧
    (∀ r ∈ h.roots 0, (∃ k o, (k, Doc.object o) ∈ docs ∧ r = (0, k)) ∨
      ∃ k p s, (k, Doc.prefab p) ∈ docs ∧ h.elem (0, k) = some (.prefab s) ∧ (h.roots s).head? = some r) ∧
    List.Sublist (h.roots 0) (docs.flatMap (objectsOf h 0)) := by
  have L := loadScene_ok trunc assets ha fuel guid docs emptyHeap h emptyHeap_ok hd hl
  have hr : h.roots 0 = (docs.flatMap (objectsOf h 0)).filter (isRoot h) := L.roots
  refine ⟨?_, ?_, ?_, by rw [hr]; exact List.filter_sublist⟩
  · intro k o ho
    have hobj := loaded_object L k o ho
    have hm : ((0, k) : Ptr) ∈ docs.flatMap (objectsOf h 0) := List.mem_flatMap.2 ⟨_, ho, by simp [objectsOf]⟩
    rw [hr, List.mem_filter, isRoot_iff]
    constructor
    · rintro ⟨_, tr, t, o', h1, h2, h3, h4, h5⟩
      rw [hobj] at h3
      cases h3
      exact ⟨h5, tr, t, h1, h2, h4⟩
    · rintro ⟨h5, tr, t, h1, h2, h4⟩
      exact ⟨hm, tr, t, o, h1, h2, hobj, h4, h5⟩
  · intro k p s root hp hs hroot
    obtain ⟨tr, o, par, t, f1, f2, f3, f4, f5, f6⟩ := L.fathers (k, .prefab p) hp p s root rfl hs hroot
    have hm : root ∈ docs.flatMap (objectsOf h 0) := by
      refine List.mem_flatMap.2 ⟨_, hp, ?_⟩
      simp only [objectsOf]
      rw [hs]
      simp [hroot]
    rw [hr, List.mem_filter, isRoot_iff]
    constructor
    · rintro ⟨_, tr', t', o', h1, h2, h3, h4, h5⟩
      cases f1.symm.trans h1
      cases f5.symm.trans h2
      rw [f6] at h4
      exact ⟨par, f4, by simpa [Ref.valid] using h4⟩
    · rintro ⟨par', h1, h2⟩
      cases f4.symm.trans h1
      exact ⟨hm, tr, t, o, f1, f5, f2, by rw [f6]; simpa [Ref.valid] using h2, f3⟩
  · intro r hm
    rw [hr, List.mem_filter, List.mem_flatMap] at hm
    obtain ⟨⟨⟨k, d⟩, hk, hd⟩, _⟩ := hm
    unfold objectsOf at hd
    split at hd
    · rename_i o ho
      simp only at ho
      subst ho
      left
      exact ⟨k, o, hk, by simpa using hd⟩
    · rename_i p hp
      simp only at hp
      subst hp
      split at hd
      · rename_i s hs
        right
        exact ⟨k, p, s, hk, hs, by simpa using hd⟩
      · cases hd
    · cases hd

/-- The room and the desk are the roots of the room; the wall and the lamps are not. -/
example : roomScene.map (fun h => h.roots 0) = some [(0, 1), (3, 20)] := by decide +kernel

theorem flatMap_nodup {α β : Type} (f : α → List β) : ∀ (l : List α), l.Nodup → (∀ a ∈ l, (f a).Nodup) →
    (∀ a ∈ l, ∀ b ∈ l, a ≠ b → ∀ x ∈ f a, x ∉ f b) → (l.flatMap f).Nodup := by
  intro l
  induction l with
  | nil => simp
  | cons a l ih =>
    intro h1 h2 h3
    rw [List.nodup_cons] at h1
    rw [List.flatMap_cons, List.nodup_append]
    refine ⟨h2 a (by simp), ih h1.2 (fun b hb => h2 b (by simp [hb])) (fun b hb c hc => h3 b (by simp [hb]) c (by simp [hc])), ?_⟩
    intro x hx y hy hxy
    subst hxy
    obtain ⟨b, hb, hxb⟩ := List.mem_flatMap.1 hy
    exact h3 a (by simp) b (by simp [hb]) (by rintro rfl; exact h1.1 hb) x hx hxb

/-- C148. No root is listed twice. -/
theorem scene_roots_nodup (trunc : F → Int) (assets : Str → Option (List (Int × Doc F)))
    (ha : ∀ g ds, assets g = some ds → (ds.map Prod.fst).Nodup) (fuel : Nat) (guid : Str) (docs : List (Int × Doc F))
    (hd : (docs.map Prod.fst).Nodup) (h : Heap F) (hl : loadScene trunc assets fuel guid docs emptyHeap = some h) :
    (h.roots 0).Nodup := by
  have L := loadScene_ok trunc assets ha fuel guid docs emptyHeap h emptyHeap_ok hd hl
  have hr : h.roots 0 = (docs.flatMap (objectsOf h 0)).filter (isRoot h) := L.roots
  rw [hr]
  apply List.Nodup.filter
  have hinj : ∀ a ∈ docs, ∀ b ∈ docs, a ≠ b → a.1 ≠ b.1 := by
    intro a ha b hb hab hc
    exact hab (List.inj_on_of_nodup_map hd ha hb hc)
  -- the scene of an instance and its range
  have range : ∀ k p, (k, Doc.prefab p) ∈ docs → ∀ x ∈ objectsOf h 0 (k, .prefab p), 0 < x.1 := by
    intro k p hp x hx
    simp only [objectsOf] at hx
    split at hx
    · rename_i s hs
      have h1 := L.ok.prefab _ _ _ hs
      have h2 := L.ok.roots s x (List.mem_of_mem_head? (by simpa using hx))
      omega
    · cases hx
  refine flatMap_nodup _ _ (List.Nodup.of_map _ hd) ?_ ?_
  · rintro ⟨k, d⟩ _
    cases d <;> simp only [objectsOf, List.nodup_nil, List.nodup_singleton]
    split
    · cases (h.roots _).head? <;> simp
    · simp
  · rintro ⟨k, d⟩ hk ⟨k', d'⟩ hk' hne x hx hx'
    have hkk : k ≠ k' := hinj _ hk _ hk' hne
    cases d with
    | object o =>
      simp only [objectsOf, List.mem_singleton] at hx
      subst hx
      cases d' with
      | object o' =>
        simp only [objectsOf, List.mem_singleton, Prod.mk.injEq, true_and] at hx'
        exact hkk hx'
      | prefab p' => exact absurd (range k' p' hk' _ hx') (by simp)
      | _ => simp [objectsOf] at hx'
    | prefab p =>
      cases d' with
      | object o' =>
        simp only [objectsOf, List.mem_singleton] at hx'
        subst hx'
        exact absurd (range k p hk _ hx) (by simp)
      | prefab p' =>
        have hL := L.shows
        cases hL with
        | mk _ _ _ _ f g range' rootsIn own absent missing place sub apart =>
          have get : ∀ k p, (k, Doc.prefab p) ∈ docs → x ∈ objectsOf h 0 (k, .prefab p) →
              (prefabDocs assets p).isSome = true ∧ f k ≤ x.1 ∧ x.1 < g k := by
            intro k p hp hx
            cases hpd : prefabDocs assets p with
            | none =>
              have : h.elem (0, k) = none := missing k p hp hpd
              simp [objectsOf, this] at hx
            | some y =>
              obtain ⟨gd, ds⟩ := y
              have hpl : h.elem (0, k) = some (.prefab (f k)) := (place k p gd ds hp hpd).1
              simp only [objectsOf, hpl] at hx
              have hx := List.mem_of_mem_head? (l := h.roots (f k)) (a := x) (by simpa using hx)
              refine ⟨rfl, ?_⟩
              cases sub k p gd ds hp hpd with
              | mk _ _ _ _ _ _ _ rootsIn' => exact rootsIn' x hx
          obtain ⟨a1, a2, a3⟩ := get k p hk hx
          obtain ⟨b1, b2, b3⟩ := get k' p' hk' hx'
          have := apart k p k' p' hk a1 hk' b1 hkk
          omega
      | _ => simp [objectsOf] at hx'
    | _ => simp [objectsOf] at hx

/-- The hypotheses are met by the room. -/
example : ∃ h, roomScene = some h ∧ (h.roots 0).Nodup := by
  obtain ⟨h, hh⟩ := Option.isSome_iff_exists.1 roomScene_some
  exact ⟨h, hh, scene_roots_nodup sampleTrunc sampleAssets sampleAssets_nodup 5 _ roomDocs roomDocs_nodup h hh⟩

/-! ### Children and parents -/

/-- The root transform of an instance of the file whose parent is `q`. The root object of the prefab is an object of
the prefab's own file. -/
def InstanceUnder (h : Heap F) (docs : List (Int × Doc F)) (q c : Ptr) : Prop :=
  ∃ k p s root par, (k, Doc.prefab p) ∈ docs ∧ h.elem (0, k) = some (.prefab s) ∧ (h.roots s).head? = some root ∧
    root.1 = s ∧ objectTransform h root = some c ∧ p.parent = some par ∧
    sceneTransform h 0 { par with guid := h.guid 0 } none = some q

/-- C149. The children of a transform of the file are the transforms its list of children means, in that order,
followed by root transforms of instances whose parent it is, each once and only if not listed. -/
theorem scene_children (trunc : F → Int) (assets : Str → Option (List (Int × Doc F)))
    (ha : ∀ g ds, assets g = some ds → (ds.map Prod.fst).Nodup) (fuel : Nat) (guid : Str) (docs : List (Int × Doc F))
    (hd : (docs.map Prod.fst).Nodup) (h : Heap F) (hl : loadScene trunc assets fuel guid docs emptyHeap = some h)
    (k : Int) (t : Transform F) (ht : (k, Doc.transform t) ∈ docs) :
    ∃ x : List Ptr, getChildren h (0, k) = (t.children.filterMap fun c => sceneTransform h 0 c t.inst) ++ x ∧ x.Nodup ∧
      (∀ c ∈ x, c ∉ t.children.filterMap fun c => sceneTransform h 0 c t.inst) ∧
      ∀ c ∈ x, ∃ k' p s root par, (k', Doc.prefab p) ∈ docs ∧ h.elem (0, k') = some (.prefab s) ∧
        (h.roots s).head? = some root ∧ objectTransform h root = some c ∧ p.parent = some par ∧
        sceneTransform h 0 { par with guid := h.guid 0 } none = some (0, k) := by
  have L := loadScene_ok trunc assets ha fuel guid docs emptyHeap h emptyHeap_ok hd hl
  obtain ⟨base, x, h1, h2, h3, h4, _, h6⟩ := L.children (0, k)
  have hb := h6 k t ht rfl
  subst hb
  refine ⟨x, h1, h2, h3, fun c hc => ?_⟩
  obtain ⟨⟨k', d⟩, hd, e, ⟨p, s, root, tr, par, o, c', k1, k2, k3, k4, k5, k6, k7, k8, k9⟩, e2, e3⟩ := h4 c hc
  simp only at k1
  subst k1
  subst k9
  simp only at e2 e3
  subst e2
  exact ⟨k', p, s, root, par, hd, k2, k3, k4, k5, e3⟩

/-- The wall, then the two lamps. -/
example : roomScene.map (fun h => getChildren h (0, 2)) = some [(0, 4), (1, 11), (2, 11)] := by decide +kernel

/-- C149. Every instance whose prefab has a root object of its own is a child of its parent, also if the parent is an
object of another instance. -/
theorem instance_is_child (trunc : F → Int) (assets : Str → Option (List (Int × Doc F)))
    (ha : ∀ g ds, assets g = some ds → (ds.map Prod.fst).Nodup) (fuel : Nat) (guid : Str) (docs : List (Int × Doc F))
    (hd : (docs.map Prod.fst).Nodup) (h : Heap F) (hl : loadScene trunc assets fuel guid docs emptyHeap = some h)
    (q c : Ptr) (hi : InstanceUnder h docs q c) : c ∈ getChildren h q := by
  have L := loadScene_ok trunc assets ha fuel guid docs emptyHeap h emptyHeap_ok hd hl
  obtain ⟨k, p, s, root, par, h1, h2, h3, h4, h5, h6, h7⟩ := hi
  obtain ⟨base, x, c1, _, _, _, c5, _⟩ := L.children q
  have : ∃ o r, h.object root = some o ∧ r ∈ o.components ∧ (findTransform h s r o.inst).isSome = true := by
    have h5' := h5
    unfold objectTransform at h5'
    cases ho : h.object root with
    | none => rw [ho] at h5'; cases h5'
    | some o =>
      rw [ho] at h5'
      obtain ⟨r, hr, hf⟩ := List.exists_of_findSome?_eq_some h5'
      exact ⟨o, r, rfl, hr, by rw [← h4, hf]; rfl⟩
  obtain ⟨o, r, k1, k2, k3⟩ := this
  have := c5 (k, .prefab p) h1 ({ par with guid := h.guid 0 }, c)
    ⟨p, s, root, c, par, o, r, rfl, h2, h3, h5, h6, k1, k2, k3, rfl⟩ h7
  rw [c1]
  exact List.mem_append.2 this

/-- A lamp in the desk of the room is a child of the desk; a lamp is under the room. -/
example : roomScene.map (fun h => getChildren h (3, 21)) = some [(4, 11)] ∧
    roomScene.map (fun h => (h.roots 1).head?) = some (some (1, 10)) ∧
    roomScene.map (fun h => objectTransform h (1, 10)) = some (some (1, 11)) ∧
    roomScene.map (fun h => sceneTransform h 0 ⟨2, h.guid 0, 0⟩ none) = some (some (0, 2)) := by
  refine ⟨by decide +kernel, by decide +kernel, by decide +kernel, by decide +kernel⟩

/-- C150. The parent and the children of transforms of the same file agree: if one lists the other and that one names
it as its father, and it is no placeholder, it is a child and it has that parent. -/
theorem own_parent (trunc : F → Int) (assets : Str → Option (List (Int × Doc F)))
    (ha : ∀ g ds, assets g = some ds → (ds.map Prod.fst).Nodup) (fuel : Nat) (guid : Str) (docs : List (Int × Doc F))
    (hd : (docs.map Prod.fst).Nodup) (h : Heap F) (hl : loadScene trunc assets fuel guid docs emptyHeap = some h)
    (k k' : Int) (t t' : Transform F) (ht : (k, Doc.transform t) ∈ docs) (ht' : (k', Doc.transform t') ∈ docs)
    (r : Ref) (hr : r ∈ t.children) (hr1 : r.fileID = k') (hr2 : r.guid = []) (hk : k ≠ 0) (hk' : k' ≠ 0)
    (hf : t'.father.fileID = k) (hv : t'.gameObject.fileID ≠ 0) :
    (0, k') ∈ getChildren h (0, k) ∧ getParent h (0, k') = some (0, k) := by
  have L := loadScene_ok trunc assets ha fuel guid docs emptyHeap h emptyHeap_ok hd hl
  obtain ⟨x, e1, _⟩ := scene_children trunc assets ha fuel guid docs hd h hl k t ht
  obtain ⟨a, ha'⟩ : ∃ a, h.transform (0, k') = some { t' with added := a } := L.own k' t' ht'
  obtain ⟨b, hb⟩ : ∃ b, h.transform (0, k) = some { t with added := b } := L.own k t ht
  have find : ∀ (j : Int) (ref : Ref) (inst : Option Ref), (h.transform (0, j)).isSome = true → ref.fileID = j → j ≠ 0 →
      (ref.guid = [] ∨ inst = none) → findTransform h 0 ref inst = some (0, j) := by
    intro j ref inst hj hij hj0 hor
    have hel : (h.elem (0, j)).isSome = true := by
      obtain ⟨u, hu⟩ := Option.isSome_iff_exists.1 hj
      rw [(transform_elem _ _ _).1 hu]
      rfl
    have hg : getElement h 0 ref inst = some (0, j) := by
      unfold getElement
      rw [if_neg (by simp [Ref.valid, hij, hj0]), if_neg (by
        rcases hor with hor | hor
        · simp [hor]
        · simp [hor, validRef])]
      subst hij
      rw [if_pos hel]
    unfold findTransform
    rw [hg]
    simp only [hj, if_true]
  constructor
  · rw [e1, List.mem_append]
    left
    refine List.mem_filterMap.2 ⟨r, hr, ?_⟩
    unfold sceneTransform
    rw [find k' r t.inst (by rw [ha']; rfl) hr1 hk' (Or.inl hr2)]
    simp only [ha']
    cases t'.source with
    | none => rfl
    | some src =>
      simp only
      rw [if_neg (by simp [Ref.valid, hv])]
  · unfold getParent
    rw [ha']
    exact find k t'.father none (by rw [hb]; rfl) hf hk (Or.inr rfl)

/-- The hypotheses are met by the wall. -/
example : here 4 ∈ (plainTransform 1 0 [4]).children ∧ (plainTransform 3 2 []).father.fileID = 2 ∧
    roomScene.map (fun h => getParent h (0, 4)) = some (some (0, 2)) := by
  refine ⟨by decide +kernel, by decide +kernel, by decide +kernel⟩

/-- A parent is in the same scene. -/
theorem getParent_scene (h : Heap F) (p q : Ptr) (hp : getParent h p = some q) : q.1 = p.1 := by
  unfold getParent at hp
  cases ht : h.transform p with
  | none => rw [ht] at hp; cases hp
  | some t =>
    rw [ht] at hp
    simp only [findTransform, getElement] at hp
    by_cases hv : t.father.valid = false
    · rw [if_pos hv] at hp
      cases hp
    · rw [if_neg hv, if_neg (by simp [validRef])] at hp
      split at hp
      · rename_i x hx
        split at hx
        · cases hx
          split at hp
          · cases hp
            rfl
          · cases hp
        · cases hx
      · cases hp

/-- C150 is false of the code for instances: the root of an instance is a child of its parent, but that is not its
parent. -/
theorem instance_parent_false (trunc : F → Int) (assets : Str → Option (List (Int × Doc F)))
    (ha : ∀ g ds, assets g = some ds → (ds.map Prod.fst).Nodup) (fuel : Nat) (guid : Str) (docs : List (Int × Doc F))
    (hd : (docs.map Prod.fst).Nodup) (h : Heap F) (hl : loadScene trunc assets fuel guid docs emptyHeap = some h)
    (k : Int) (c : Ptr) (hi : InstanceUnder h docs (0, k) c) : c ∈ getChildren h (0, k) ∧ getParent h c ≠ some (0, k) := by
  refine ⟨instance_is_child trunc assets ha fuel guid docs hd h hl _ _ hi, fun hc => ?_⟩
  have L := loadScene_ok trunc assets ha fuel guid docs emptyHeap h emptyHeap_ok hd hl
  obtain ⟨k', p, s, root, par, h1, h2, h3, h4, h5, h6, h7⟩ := hi
  have e := getParent_scene h c (0, k) hc
  have h8 := (objectTransform_scene h L.ok root c h5).1
  have h9 := L.ok.prefab _ _ _ h2
  simp only at e
  omega

/-- The lamp under the room has no parent. -/
example : roomScene.map (fun h => (decide ((1, 11) ∈ getChildren h (0, 2)), getParent h (1, 11))) = some (true, none) := by
  decide +kernel

/-- C151 is false of the code: an object of the file is never a child of an object of an instance, also if its
transform names that object (through a placeholder) as its father. -/
theorem added_object_lost_false (trunc : F → Int) (assets : Str → Option (List (Int × Doc F)))
    (ha : ∀ g ds, assets g = some ds → (ds.map Prod.fst).Nodup) (fuel : Nat) (guid : Str) (docs : List (Int × Doc F))
    (hd : (docs.map Prod.fst).Nodup) (h : Heap F) (hl : loadScene trunc assets fuel guid docs emptyHeap = some h)
    (q : Ptr) (hq : 0 < q.1) (k : Int) : (0, k) ∉ getChildren h q := by
  have L := loadScene_ok trunc assets ha fuel guid docs emptyHeap h emptyHeap_ok hd hl
  intro hm
  have := (L.kids q (0, k) (Nat.zero_le _) hm).2 hq
  exact absurd this (by simp)

/-- A scene with a lamp and a shade that was put under the bulb of the lamp: the file has a placeholder (3) for the
transform of the bulb, and the shade's transform names it as its father. -/
def shadeDocs : List (Int × Doc ℚ) :=
  [(2, .prefab ⟨[], some (here 0), some ⟨100, "lamp".toList, 3⟩⟩),
   (3, .transform ⟨here 0, some ⟨13, "lamp".toList, 3⟩, some (here 2), here 0, [], ⟨0, 0, 0⟩, ⟨0, 0, 0, 1⟩, ⟨1, 1, 1⟩, []⟩),
   (4, .object ⟨"shade".toList, 1, [here 5], none, none⟩), (5, .transform (plainTransform 4 3 []))]

/-- The father of the shade is the transform of the bulb, but the shade is no child of it and no root: it is lost. -/
example : (loadScene sampleTrunc sampleAssets 5 [] shadeDocs emptyHeap).map (fun h => (sceneTransform h 0 (here 3) none,
      getChildren h (1, 13), h.roots 0, getChildren h (1, 11))) = some (some (1, 13), [], [(1, 10)], [(1, 13)]) := by
  decide +kernel

/-- A prefab that is a variant of the lamp: all it has is an instance of it. -/
def variantAssets (g : Str) : Option (List (Int × Doc ℚ)) :=
  if g = "variant".toList then some [(40, .prefab ⟨[], some (here 0), some ⟨100, "lamp".toList, 3⟩⟩)] else sampleAssets g

/-- A room with such a lamp under it. -/
def variantRoom : List (Int × Doc ℚ) :=
  [(1, .object ⟨"room".toList, 1, [here 2], none, none⟩), (2, .transform (plainTransform 1 0 [])),
   (5, .prefab ⟨[], some (here 2), some ⟨100, "variant".toList, 3⟩⟩)]

/-- C151 is false of the code also for variants of prefabs: an instance of a variant with a parent is no root and no
child of its parent, so it is lost. (`instance_is_child` needs the root to be an object of the prefab's own file.) -/
theorem variant_lost_false : (loadScene sampleTrunc variantAssets 5 "room".toList variantRoom emptyHeap).map (fun h =>
    ((h.roots 1).head?, h.roots 0, getChildren h (0, 2), (h.transform (2, 11)).map (·.father.fileID))) =
    some (some (2, 10), [(0, 1)], [], some 2) := by decide +kernel

/-- The same with the lamp itself: it is a child. -/
example : (loadScene sampleTrunc variantAssets 5 "room".toList
    [(1, .object ⟨"room".toList, 1, [here 2], none, none⟩), (2, .transform (plainTransform 1 0 [])),
     (5, .prefab ⟨[], some (here 2), some ⟨100, "lamp".toList, 3⟩⟩)] emptyHeap).map (fun h => getChildren h (0, 2)) =
    some [(1, 11)] := by decide +kernel

/-- C147 is false of the code for names that look like numbers: an instance renamed to `2024` has an empty name. -/
theorem number_name_false : (loadScene sampleTrunc sampleAssets 5 "room".toList
    [(5, .prefab ⟨[⟨some ⟨10, "lamp".toList, 3⟩, "m_Name".toList, .none, .int 2024, none⟩], some (here 0),
      some ⟨100, "lamp".toList, 3⟩⟩)] emptyHeap).map (fun h => (h.object (1, 10)).map (·.name)) = some (some []) := by
  decide +kernel

/-! ### Loading ends -/

/-- A document can be loaded if its prefab can. -/
theorem loadScene_foldlM_some (trunc : F → Int) (assets : Str → Option (List (Int × Doc F)))
    (load : Str → List (Int × Doc F) → Heap F → Option (Heap F)) (n : Nat) (docs : List (Int × Doc F))
    (hp : ∀ k p, (k, Doc.prefab p) ∈ docs → p.parent.isSome = true ∧
      ∀ gd ds, prefabDocs assets p = some (gd, ds) → ∀ h, (load gd ds h).isSome = true) :
    ∀ st, (docs.foldlM (loadDoc trunc assets load n) st).isSome = true := by
  induction docs with
  | nil => exact fun st => rfl
  | cons d ds ih =>
    intro st
    rw [List.foldlM_cons]
    have : (loadDoc trunc assets load n st d).isSome = true := by
      obtain ⟨k, d⟩ := d
      cases d with
      | prefab p =>
        obtain ⟨h1, h2⟩ := hp k p (by simp)
        simp only [loadDoc, loadInstance]
        cases hsrc : p.source with
        | none => rfl
        | some src =>
          simp only
          split
          · rfl
          · rename_i hv
            cases hds : assets src.guid with
            | none => rfl
            | some docs =>
              simp only
              have := h2 src.guid docs (by simp [prefabDocs, hsrc, hds, hv]) st.heap
              obtain ⟨h', hl⟩ := Option.isSome_iff_exists.1 this
              rw [hl]
              simp only
              have : (placeRoot n st.heap.count p.parent { st with heap := h' }).isSome = true := by
                unfold placeRoot
                split
                · rfl
                · split
                  · rfl
                  · obtain ⟨par, hpar⟩ := Option.isSome_iff_exists.1 h1
                    rw [hpar]
                    rfl
              obtain ⟨st', hst⟩ := Option.isSome_iff_exists.1 this
              rw [hst]
              rfl
      | _ => rfl
    obtain ⟨st', hst⟩ := Option.isSome_iff_exists.1 this
    rw [hst]
    exact ih (fun k p hm => hp k p (by simp [hm])) st'

/-- C152. Loading ends without a panic if no prefab contains itself, directly or through others, and every instance has
a parent entry. -/
theorem loading_ends (trunc : F → Int) (assets : Str → Option (List (Int × Doc F))) (rank : Str → Nat)
    (hrank : ∀ g ds k p gd ds', assets g = some ds → (k, Doc.prefab p) ∈ ds → prefabDocs assets p = some (gd, ds') →
      rank gd < rank g)
    (hparent : ∀ g ds k p, assets g = some ds → (k, Doc.prefab p) ∈ ds → p.parent.isSome = true) :
    ∀ fuel guid docs h, (∀ k p, (k, Doc.prefab p) ∈ docs → p.parent.isSome = true ∧
      ∀ gd ds, prefabDocs assets p = some (gd, ds) → rank gd < fuel) →
      (loadScene trunc assets (fuel + 1) guid docs h).isSome = true := by
  intro fuel
  induction fuel with
  | zero =>
    intro guid docs h hd
    simp only [loadScene, Option.isSome_map]
    apply loadScene_foldlM_some
    intro k p hm
    obtain ⟨h1, h2⟩ := hd k p hm
    exact ⟨h1, fun gd ds he => absurd (h2 gd ds he) (by omega)⟩
  | succ fuel ih =>
    intro guid docs h hd
    rw [loadScene]
    simp only [Option.isSome_map]
    apply loadScene_foldlM_some
    intro k p hm
    obtain ⟨h1, h2⟩ := hd k p hm
    refine ⟨h1, fun gd ds he h' => ?_⟩
    have hads : assets gd = some ds := by
      unfold prefabDocs at he
      split at he
      · split at he
        · rw [Option.map_eq_some_iff] at he
          obtain ⟨x, hx, he⟩ := he
          cases he
          exact hx
        · cases he
      · cases he
    apply ih
    intro k' p' hm'
    refine ⟨hparent gd ds k' p' hads hm', fun gd' ds' he' => ?_⟩
    have := hrank gd ds k' p' gd' ds' hads hm' he'
    have := h2 gd ds he
    omega

/-- The hypotheses are met by the prefabs of the room. -/
example : (loadScene sampleTrunc sampleAssets 3 "room".toList roomDocs emptyHeap).isSome = true := by
  refine loading_ends sampleTrunc sampleAssets (fun g => if g = "desk".toList then 1 else 0) ?_ ?_ 2 _ roomDocs _ ?_
  · intro g ds k p gd ds' hg hm hp
    unfold sampleAssets at hg
    split at hg
    · cases hg
      simp [lampDocs] at hm
    · split at hg
      · rename_i hdesk
        cases hg
        simp only [deskDocs, List.mem_cons, Prod.mk.injEq, reduceCtorEq, and_false, List.not_mem_nil, or_false, false_or,
          Doc.prefab.injEq] at hm
        obtain ⟨rfl, rfl⟩ := hm
        have hgd : gd = "lamp".toList := by
          have e : prefabDocs sampleAssets ⟨[], some (here 21), some ⟨100, "lamp".toList, 3⟩⟩ =
            some ("lamp".toList, lampDocs) := rfl
          rw [e] at hp
          cases hp
          rfl
        subst hgd
        rw [if_pos hdesk]
        decide
      · cases hg
  · intro g ds k p hg hm
    unfold sampleAssets at hg
    split at hg
    · cases hg
      simp [lampDocs] at hm
    · split at hg
      · cases hg
        simp only [deskDocs, List.mem_cons, Prod.mk.injEq, reduceCtorEq, and_false, List.not_mem_nil, or_false, false_or,
          Doc.prefab.injEq] at hm
        obtain ⟨rfl, rfl⟩ := hm
        rfl
      · cases hg
  · intro k p hm
    refine ⟨?_, fun gd ds _ => ?_⟩
    · simp only [roomDocs, List.mem_cons, Prod.mk.injEq, reduceCtorEq, and_false, List.not_mem_nil, or_false, false_or,
        Doc.prefab.injEq] at hm
      rcases hm with ⟨-, rfl⟩ | ⟨-, rfl⟩ | ⟨-, rfl⟩ | ⟨-, rfl⟩ <;> rfl
    · show (if gd = "desk".toList then 1 else 0) < 2
      split <;> omega

/-- More fuel gives the same result. -/
theorem foldlM_mono {α β : Type} (f f' : β → α → Option β) (hf : ∀ b a c, f b a = some c → f' b a = some c) (l : List α) :
    ∀ b c, l.foldlM f b = some c → l.foldlM f' b = some c := by
  induction l with
  | nil => exact fun b c h => h
  | cons a l ih =>
    intro b c h
    rw [List.foldlM_cons] at h ⊢
    cases h1 : f b a with
    | none => rw [h1] at h; cases h
    | some b' =>
      rw [h1] at h
      rw [hf b a b' h1]
      exact ih b' c h

/-- C152. The bound on the nesting does not matter: a larger one gives the same scene. -/
theorem loading_fuel (trunc : F → Int) (assets : Str → Option (List (Int × Doc F))) : ∀ fuel fuel' guid docs (h h' : Heap F),
    fuel ≤ fuel' → loadScene trunc assets fuel guid docs h = some h' → loadScene trunc assets fuel' guid docs h = some h' := by
  intro fuel
  induction fuel with
  | zero => exact fun fuel' guid docs h h' _ hl => by simp [loadScene] at hl
  | succ fuel ih =>
    intro fuel' guid docs h h' hle hl
    obtain ⟨fuel', rfl⟩ : ∃ m, fuel' = m + 1 := ⟨fuel' - 1, by omega⟩
    simp only [loadScene, Option.map_eq_some_iff] at hl ⊢
    obtain ⟨st, h1, h2⟩ := hl
    refine ⟨st, foldlM_mono _ _ ?_ docs _ _ h1, h2⟩
    intro b d c hb
    obtain ⟨k, d⟩ := d
    cases d with
    | prefab p =>
      simp only [loadDoc, loadInstance] at hb ⊢
      cases hsrc : p.source with
      | none => rw [hsrc] at hb; exact hb
      | some src =>
        rw [hsrc] at hb
        simp only at hb ⊢
        split at hb
        · rename_i hv
          rw [if_pos hv]
          exact hb
        · rename_i hv
          rw [if_neg hv]
          cases hds : assets src.guid with
          | none => rw [hds] at hb; exact hb
          | some ds =>
            rw [hds] at hb
            simp only at hb ⊢
            cases hl : loadScene trunc assets fuel src.guid ds b.heap with
            | none => rw [hl] at hb; cases hb
            | some h1 =>
              rw [hl] at hb
              rw [ih fuel' _ _ _ _ (by omega) hl]
              exact hb
    | _ => exact hb

/-- The hypotheses are met. -/
example : (loadScene sampleTrunc sampleAssets 3 "room".toList roomDocs emptyHeap).isSome = true := by decide +kernel

/-- C152 is false without that condition: a prefab that contains itself is never loaded; the program does not return. -/
theorem cycle_never_loads_false (trunc : F → Int) (assets : Str → Option (List (Int × Doc F))) (guid : Str)
    (ds : List (Int × Doc F)) (hg : assets guid = some ds) (k : Int) (p : PrefabDoc F) (src : Ref) (hp : (k, Doc.prefab p) ∈ ds)
    (hs : p.source = some src) (hv : src.valid = true) (hsg : src.guid = guid) :
    ∀ fuel h, loadScene trunc assets fuel guid ds h = none := by
  intro fuel
  induction fuel with
  | zero => exact fun h => rfl
  | succ fuel ih =>
    intro h
    have key : ∀ (l : List (Int × Doc F)) n st, (k, Doc.prefab p) ∈ l →
        l.foldlM (loadDoc trunc assets (loadScene trunc assets fuel) n) st = none := by
      intro l n
      induction l with
      | nil => exact fun st hm => by cases hm
      | cons d l ihl =>
        intro st hm
        rw [List.foldlM_cons]
        rcases List.mem_cons.1 hm with rfl | hm
        · have : loadDoc trunc assets (loadScene trunc assets fuel) n st (k, .prefab p) = none := by
            subst hsg
            simp only [loadDoc, loadInstance, hs, hv, hg, ih]
            simp
          rw [this]
          rfl
        · cases hd : loadDoc trunc assets (loadScene trunc assets fuel) n st d with
          | none => rfl
          | some st' => exact ihl st' hm
    simp only [loadScene, key ds _ _ hp, Option.map_none]

/-- The hypotheses are met by a prefab with an instance of itself. -/
example : ∀ fuel h, loadScene sampleTrunc
    (fun g => if g = "loop".toList then some [(1, Doc.prefab ⟨[], none, some ⟨100, "loop".toList, 3⟩⟩)] else none) fuel
    "loop".toList [(1, Doc.prefab ⟨[], none, some ⟨100, "loop".toList, 3⟩⟩)] h = none :=
  cycle_never_loads_false _ _ _ _ rfl 1 _ ⟨100, "loop".toList, 3⟩ (List.mem_singleton.2 rfl) rfl rfl rfl

end Verif.Unity
