import Verif.Conv.UnityLink
import Verif.Conv.UnityMeshProps

/-! Trees of game objects as a user sees them, and what the converter of converter/unity2mqo.go makes of a loaded scene
with such trees. -/

namespace Verif.Conv

open Verif.Geom
open Verif.Mqo (Str Object)
open Verif.Unity (Ref Ptr Heap Elem Comp Doc getElement objectTransform transformObject getChildren builtinMesh)

variable {F : Type}

/-- A component other than a transform. -/
inductive Part (F : Type) where
  | renderer (enabled : Int) (materials : List (Option Ref))
  | comp (c : Comp F)

/-- A game object as a user sees it: its own pose and its components. -/
structure UNode (F : Type) where
  name : Str
  active : Bool
  position : Vec3 F
  rotation : Vec4 F
  scale : Vec3 F
  parts : List (Part F)

/-- A game object with its children. `obj` and `tr` say where the game object and its transform are. -/
inductive GTree (F : Type) where
  | node (obj tr : Ptr) (x : UNode F) (children : List (GTree F))

/-- Where the game object is. -/
def GTree.obj : GTree F → Ptr
  | .node p _ _ _ => p

/-- Where the transform is. -/
def GTree.tr : GTree F → Ptr
  | .node _ q _ _ => q

mutual

/-- The game objects of a tree, parents before children and children in order; each with all those above it, from the
root to itself. -/
def GTree.chains : GTree F → List (UNode F) → List (List (UNode F))
  | .node _ _ x cs, above => (above ++ [x]) :: chainsAll cs (above ++ [x])

/-- The game objects of some trees. -/
def chainsAll : List (GTree F) → List (UNode F) → List (List (UNode F))
  | [], _ => []
  | t :: ts, above => t.chains above ++ chainsAll ts above

end

/-- The mesh of a mesh filter. -/
def Part.filter : Part F → Option (Option Ref)
  | .comp (.filter r) => some r
  | _ => none

/-- A mesh renderer: whether it is enabled and its materials. -/
def Part.mesh : Part F → Option (Bool × List Str)
  | .renderer e ms => some (decide (e ≠ 0), ms.filterMap (Option.map Ref.guid))
  | _ => none

/-- A light: type, colour and the four numbers. -/
def Part.light : Part F → Option (ULight F)
  | .comp (.light t c i r o n) => some ⟨t, c, i, r, o, n⟩
  | _ => none

/-- A rigid body. -/
def Part.body : Part F → Option (URigidbody F)
  | .comp (.body m d a k) => some ⟨m, d, a, decide (k ≠ 0)⟩
  | _ => none

/-- A box collider: centre and size. -/
def Part.box : Part F → Option (Vec3 F × Vec3 F)
  | .comp (.box c s) => some (c, s)
  | _ => none

/-- A sphere collider: centre and radius. -/
def Part.sphere : Part F → Option (Vec3 F × F)
  | .comp (.sphere c r) => some (c, r)
  | _ => none

/-- A capsule collider: centre, radius and height. -/
def Part.capsule : Part F → Option (Vec3 F × F × F)
  | .comp (.capsule c r l) => some (c, r, l)
  | _ => none

/-- A mesh collider: its mesh. -/
def Part.meshCollider : Part F → Option URef
  | .comp (.mesh (some r)) => some ⟨r.fileID, r.guid, r.type⟩
  | _ => none

/-- The mesh a game object shows and its renderer. -/
def UNode.mesh (x : UNode F) : Option (URef × URenderer) :=
  match x.parts.findSome? Part.filter, x.parts.findSome? Part.mesh with
  | some (some r), some (e, ms) => if r.fileID = 0 then none else some (⟨r.fileID, r.guid, r.type⟩, ⟨e, ms⟩)
  | _, _ => none

/-- What the pose of a game object does with a point: scale, turn, move. -/
def UNode.point [Field F] (x : UNode F) (v : Vec3 F) : Vec3 F :=
  x.position.add (turnBy x.rotation ⟨x.scale.x * v.x, x.scale.y * v.y, x.scale.z * v.z⟩)

/-- Where a point of the last game object of a chain is in the scene. -/
def chainPoint [Field F] (c : List (UNode F)) (v : Vec3 F) : Vec3 F := c.foldr UNode.point v

/-- The objects `g` of the document show the last game object of a chain: `g.1` is its own object and `g.2` are those
imported from an FBX file for it. -/
structure ShownAs [Field F] (M : UMath F) (sc : UScene F) (opt : UOptions F) (c : List (UNode F))
    (g : Object F × List (Object F)) : Prop where
  depth : g.1.depth = (c.length : Int) - 1
  pose : ∀ x, c.getLast? = some x → g.1.translation = some (mirror (x.position.scale opt.convertScale)) ∧
    g.1.scale = some x.scale ∧ ∃ q, g.1.rotation = some (M.euler q) ∧
      ∀ v, (Mat4.rotation q).applyTo (mirror v) = mirror (turnBy x.rotation v)
  plain : ∀ x, c.getLast? = some x → x.mesh = none → g.1.name = x.name ∧
    (g.1.visible = true ↔ ∀ y ∈ c, y.active = true) ∧ g.1.vertexes = [] ∧ g.1.faces = [] ∧ g.2 = []
  builtin : ∀ x r rend n, c.getLast? = some x → x.mesh = some (r, rend) → (r, n) ∈ builtinTable →
    g.1.name = x.name ++ "(".toList ++ n ++ ")".toList ∧ g.2 = [] ∧
    (g.1.visible = true ↔ (∀ y ∈ c, y.active = true) ∧ rend.enabled = true) ∧
    ∃ m, builtinMesh M.trig true r.fileID = some m ∧
      g.1.vertexes = m.vs.map fun v => mirror ((chainPoint c (mirror v)).scale opt.convertScale)
  imported : ∀ x r rend, c.getLast? = some x → x.mesh = some (r, rend) → (∀ n, (r, n) ∉ builtinTable) →
    (g.1.visible = true ↔ ∀ y ∈ c, y.active = true) ∧ g.1.vertexes = [] ∧ g.1.faces = [] ∧
    (sc.fbx r.guid = none → g.1.name = x.name ∧ g.2 = []) ∧
    ((sc.fbx r.guid).isSome = true → g.1.name = x.name ++ "(FBX)".toList) ∧
    ∀ o ∈ g.2, (c.length : Int) ≤ o.depth ∧
      (o.visible = true ↔ (∀ y ∈ c, y.active = true) ∧ rend.enabled = true)
  light : ∀ x l, c.getLast? = some x → x.parts.findSome? Part.light = some l → ∃ t, g.1.internalTransform = some t ∧
    ∀ v, t.applyTo v = mirror ((chainPoint c (mirror v)).scale opt.convertScale)

/-! ### Trees in a loaded scene -/

/-- A component of a loaded scene. -/
def partOf : Elem F → Option (Part F)
  | .renderer e ms => some (.renderer e ms)
  | .other c => some (.comp c)
  | _ => none

/-- The game object at `p` with its transform at `q`. -/
structure NodeIn (h : Heap F) (p q : Ptr) (x : UNode F) : Prop where
  object : ∃ o, h.object p = some o ∧ o.name = x.name ∧ x.active = decide (o.active ≠ 0)
  found : objectTransform h p = some q
  transform : ∃ t, h.transform q = some t ∧ t.position = x.position ∧ t.rotation = x.rotation ∧ t.scale = x.scale
  back : transformObject h q = some p
  parts : (componentsOf h p).filterMap partOf = x.parts

mutual

/-- The scene has the tree. -/
def GTree.In (h : Heap F) : GTree F → Prop
  | .node p q x cs => NodeIn h p q x ∧ getChildren h q = cs.map GTree.tr ∧ AllIn h cs

/-- The scene has the trees. -/
def AllIn (h : Heap F) : List (GTree F) → Prop
  | [] => True
  | t :: ts => t.In h ∧ AllIn h ts

end

theorem findSome_of_filterMap {α β γ : Type} (f : α → Option β) (g : β → Option γ) (l : List α) :
    (l.filterMap f).findSome? g = l.findSome? fun a => (f a).bind g := by
  induction l with
  | nil => rfl
  | cons a l ih =>
    rw [List.filterMap_cons, List.findSome?_cons]
    cases f a with
    | none => exact ih
    | some b => rw [List.findSome?_cons, ih]; rfl

theorem map_findSome {α β γ : Type} (f : α → Option β) (g : β → γ) (l : List α) :
    (l.findSome? f).map g = l.findSome? fun a => (f a).map g := by
  induction l with
  | nil => rfl
  | cons a l ih =>
    rw [List.findSome?_cons, List.findSome?_cons]
    cases f a with
    | none => exact ih
    | some b => rfl

theorem mapM_of_forall₂ {α β : Type} (v : α → Option β) {as : List α} {ls : List β}
    (w : List.Forall₂ (fun a l => v a = some l) as ls) : as.mapM v = some ls := by
  induction w with
  | nil => rfl
  | cons hab _ ih => rw [List.mapM_cons, hab, ih]; rfl

/-- A number stands for a game object. -/
def Stands (N : Numbering) (h : Heap F) (k : Nat) (x : UNode F) : Prop := ∃ p q, k = N.num p ∧ NodeIn h p q x

theorem GTree.In.back {h : Heap F} {t : GTree F} (ht : t.In h) : transformObject h t.tr = some t.obj := by
  cases t with
  | node p q x cs =>
    rw [GTree.In] at ht
    exact ht.1.back

theorem AllIn.objects {h : Heap F} (N : Numbering) : ∀ (ts : List (GTree F)), AllIn h ts →
    ((ts.map GTree.tr).map fun c => (transformObject h c).map N.num).filterMap id = ts.map fun t => N.num t.obj := by
  intro ts
  induction ts with
  | nil => exact fun _ => rfl
  | cons t ts ih =>
    intro ht
    rw [AllIn] at ht
    rw [List.map_cons, List.map_cons, ht.1.back, List.map_cons, ← ih ht.2]
    rfl

section

variable {N : Numbering} {assets : UScene F} {h : Heap F} {n : Nat}

theorem NodeIn.linked {p q : Ptr} {x : UNode F} (w : NodeIn h p q x) :
    (linkObject N h p).name = x.name ∧ (linkObject N h p).active = x.active ∧
    (linkObject N h p).transform = some ⟨x.position, x.rotation, x.scale,
      (getChildren h q).map fun c => (transformObject h c).map N.num⟩ ∧
    (linkObject N h p).mesh = x.mesh ∧ (linkObject N h p).light = x.parts.findSome? Part.light := by
  obtain ⟨o, h1, h2, h3⟩ := w.object
  obtain ⟨t, h4, h5, h6, h7⟩ := w.transform
  refine ⟨by simp [linkObject, h1, h2], by simp [linkObject, h1, h3], ?_, ?_, ?_⟩
  · simp only [linkObject, w.found, Option.bind_some, linkTransform, h4, Option.map_some, h5, h6, h7]
  · have e1 : (linkObject N h p).meshFilter = (x.parts.findSome? Part.filter).map (Option.map refOf) := by
      simp only [linkObject, getComponent, ← w.parts]
      rw [findSome_of_filterMap, map_findSome]
      congr 1
      funext e
      cases e with
      | other c => cases c <;> rfl
      | _ => rfl
    have e2 : (linkObject N h p).meshRenderer = (x.parts.findSome? Part.mesh).map fun v => ⟨v.1, v.2⟩ := by
      simp only [linkObject, getComponent, ← w.parts]
      rw [findSome_of_filterMap, map_findSome]
      congr 1
      funext e
      cases e with
      | other c => cases c <;> rfl
      | _ => rfl
    unfold UObject.mesh UNode.mesh
    rw [e1, e2]
    cases x.parts.findSome? Part.filter with
    | none => rfl
    | some r =>
      cases r with
      | none => rfl
      | some r =>
        cases x.parts.findSome? Part.mesh with
        | none => rfl
        | some v => rfl
  · simp only [linkObject, getComponent, ← w.parts]
    rw [findSome_of_filterMap]
    congr 1
    funext e
    cases e with
    | other c => cases c <;> rfl
    | _ => rfl

theorem NodeIn.bodies {p q : Ptr} {x : UNode F} (w : NodeIn h p q x) :
    (linkObject N h p).boxes = x.parts.filterMap Part.box ∧ (linkObject N h p).spheres = x.parts.filterMap Part.sphere ∧
    (linkObject N h p).capsules = x.parts.filterMap Part.capsule ∧
    (linkObject N h p).meshColliders = x.parts.filterMap Part.meshCollider ∧
    (linkObject N h p).rigidbody = x.parts.findSome? Part.body := by
  refine ⟨?_, ?_, ?_, ?_, ?_⟩
  · simp only [linkObject, getComponents, ← w.parts, List.filterMap_filterMap]
    congr 1
    funext e
    cases e with
    | other c => cases c <;> rfl
    | _ => rfl
  · simp only [linkObject, getComponents, ← w.parts, List.filterMap_filterMap]
    congr 1
    funext e
    cases e with
    | other c => cases c <;> rfl
    | _ => rfl
  · simp only [linkObject, getComponents, ← w.parts, List.filterMap_filterMap]
    congr 1
    funext e
    cases e with
    | other c => cases c <;> rfl
    | _ => rfl
  · simp only [linkObject, getComponents, ← w.parts, List.filterMap_filterMap]
    congr 1
    funext e
    cases e with
    | other c =>
      cases c with
      | mesh r => cases r <;> rfl
      | _ => rfl
    | _ => rfl
  · simp only [linkObject, getComponent, ← w.parts]
    rw [findSome_of_filterMap]
    congr 1
    funext e
    cases e with
    | other c => cases c <;> rfl
    | _ => rfl

theorem link_object (p : Ptr) : (linkScene N assets h n).object (N.num p) = linkObject N h p := by
  simp [linkScene, N.inv]

mutual

theorem paths_chains : ∀ (t : GTree F) (fuel : Nat) (pre : List Nat) (above : List (UNode F)) (l : List (List Nat)),
    t.In h → List.Forall₂ (Stands N h) pre above →
    unityPaths (linkScene N assets h n) fuel pre (N.num t.obj) = some l →
    List.Forall₂ (List.Forall₂ (Stands N h)) l (t.chains above)
  | .node p q x cs, fuel, pre, above, l, ht, hp, hl => by
    rw [GTree.In] at ht
    obtain ⟨hn, hc, hcs⟩ := ht
    cases fuel with
    | zero => simp [unityPaths] at hl
    | succ fuel =>
      have hs : Stands N h (N.num p) x := ⟨p, q, rfl, hn⟩
      have hp' : List.Forall₂ (Stands N h) (pre ++ [N.num p]) (above ++ [x]) := by
        refine List.rel_append hp (.cons hs .nil)
      simp only [unityPaths, GTree.obj] at hl
      rw [link_object, (hn.linked (N := N)).2.2.1] at hl
      simp only [hc] at hl
      rw [AllIn.objects N cs hcs] at hl
      obtain ⟨ls, h1, h2⟩ := Option.map_eq_some_iff.1 hl
      subst h2
      rw [GTree.chains]
      exact .cons hp' (paths_chainsAll cs fuel _ _ ls hcs hp' h1)

theorem paths_chainsAll : ∀ (ts : List (GTree F)) (fuel : Nat) (pre : List Nat) (above : List (UNode F))
    (ls : List (List (List Nat))), AllIn h ts → List.Forall₂ (Stands N h) pre above →
    (ts.map fun t => N.num t.obj).mapM (unityPaths (linkScene N assets h n) fuel pre) = some ls →
    List.Forall₂ (List.Forall₂ (Stands N h)) ls.flatten (chainsAll ts above)
  | [], fuel, pre, above, ls, _, _, hl => by
    simp at hl
    subst hl
    rw [chainsAll]
    exact .nil
  | t :: ts, fuel, pre, above, ls, ht, hp, hl => by
    rw [AllIn] at ht
    rw [List.map_cons, List.mapM_cons] at hl
    cases h1 : unityPaths (linkScene N assets h n) fuel pre (N.num t.obj) with
    | none => rw [h1] at hl; simp at hl
    | some l =>
      cases h2 : (ts.map fun t => N.num t.obj).mapM (unityPaths (linkScene N assets h n) fuel pre) with
      | none => rw [h1, h2] at hl; simp at hl
      | some ls' =>
        rw [h1, h2] at hl
        simp at hl
        subst hl
        rw [chainsAll, List.flatten_cons]
        exact List.rel_append (paths_chains t fuel pre above l ht.1 hp h1) (paths_chainsAll ts fuel pre above ls' ht.2 hp h2)

end

theorem forall₂_imp_mem {α β : Type} {P Q : α → β → Prop} {l : List α} {l' : List β} (w : List.Forall₂ P l l')
    (hq : ∀ a ∈ l, ∀ b, P a b → Q a b) : List.Forall₂ Q l l' := by
  induction w with
  | nil => exact .nil
  | cons hab _ ih => exact .cons (hq _ (by simp) _ hab) (ih fun a ha => hq a (by simp [ha]))

theorem stands_last {w : List Nat} {c : List (UNode F)} (hw : List.Forall₂ (Stands N h) w c) (x : UNode F)
    (hx : c.getLast? = some x) : Stands N h (w.getLastD 0) x := by
  induction hw with
  | nil => cases hx
  | @cons k y w c hk hr ih =>
    cases hr with
    | nil =>
      simp only [List.getLast?_singleton, Option.some.injEq] at hx
      subst hx
      exact hk
    | @cons k' y' w' c' hk' hr' =>
      rw [List.getLast?_cons_cons] at hx
      simpa using ih hx

theorem stands_active {w : List Nat} {c : List (UNode F)} (hw : List.Forall₂ (Stands N h) w c) :
    pathActive (linkScene N assets h n) w = true ↔ ∀ y ∈ c, y.active = true := by
  unfold pathActive
  induction hw with
  | nil => simp
  | @cons k y w c hk _ ih =>
    obtain ⟨p, q, rfl, hn⟩ := hk
    rw [List.all_cons, Bool.and_eq_true, ih, link_object, hn.linked.2.1]
    simp

theorem stands_point [Field F] {w : List Nat} {c : List (UNode F)} (hw : List.Forall₂ (Stands N h) w c) (v : Vec3 F) :
    worldPoint (linkScene N assets h n) w v = chainPoint c v := by
  unfold worldPoint chainPoint
  induction hw with
  | nil => rfl
  | @cons k y w c hk _ ih =>
    obtain ⟨p, q, rfl, hn⟩ := hk
    rw [List.foldr_cons, List.foldr_cons, ih, link_object, hn.linked.2.2.1]
    rfl

variable [Field F] [DecidableEq F] [FloatOps F]

/-- The paths of the converted game objects are the chains. -/
theorem linked_paths {M : UMath F} {opt : UOptions F} {ffuel fuel : Nat} {r st : UState F} {zs : List (UOut F)}
    {ls : List (List (List Nat))} (trees : List (GTree F)) (hr : h.roots n = trees.map GTree.obj) (ht : AllIn h trees)
    (hd : UDone M (linkScene N assets h n) opt ffuel fuel r zs ls st) :
    List.Forall₂ (fun z c => List.Forall₂ (Stands N h) z.1 c) zs (chainsAll trees []) := by
  have hm := mapM_of_forall₂ _ hd.paths
  rw [show (linkScene N assets h n).roots = trees.map fun t => N.num t.obj by simp [linkScene, hr]] at hm
  have hpaths := paths_chainsAll trees fuel [] [] ls ht .nil hm
  rwa [← hd.ways, List.forall₂_map_left_iff] at hpaths

/-- The objects of the document of a scene with some trees. -/
theorem linked_objects {M : UMath F} {opt : UOptions F} {ffuel fuel : Nat} {r st : UState F} {zs : List (UOut F)}
    {ls : List (List (List Nat))} {chains : List (List (UNode F))}
    (hd : UDone M (linkScene N assets h n) opt ffuel fuel r zs ls st)
    (hpaths : List.Forall₂ (fun z c => List.Forall₂ (Stands N h) z.1 c) zs chains) :
    r.objects = (zs.map Prod.snd).flatMap (fun g => g.1 :: g.2) ∧
      List.Forall₂ (ShownAs M assets opt) chains (zs.map Prod.snd) := by
  refine ⟨?_, ?_⟩
  · rw [hd.objects, List.flatMap_map, List.map_flatMap]
    congr 1
    funext z
    simp [tagUnity, Function.comp_def]
  · rw [List.forall₂_map_right_iff]
    refine List.Forall₂.flip (forall₂_imp_mem hpaths ?_)
    rintro ⟨w, o, imp⟩ hz c hw
    simp only at hw
    obtain ⟨sa, sb, hok, hext, _⟩ := hd.step w o imp hz
    have hne := isPath_ne (hd.isPath w o imp hz)
    have hlen := hw.length_eq
    have hact := stands_active (assets := assets) (n := n) hw
    have hlast : ∀ x, c.getLast? = some x → ∃ tr, ((linkScene N assets h n).object (w.getLastD 0)).transform = some tr ∧
        tr.position = x.position ∧ tr.rotation = x.rotation ∧ tr.scale = x.scale ∧
        ((linkScene N assets h n).object (w.getLastD 0)).name = x.name ∧
        ((linkScene N assets h n).object (w.getLastD 0)).mesh = x.mesh ∧
        ((linkScene N assets h n).object (w.getLastD 0)).light = x.parts.findSome? Part.light := by
      intro x hx
      obtain ⟨p, q, e, hn⟩ := stands_last hw x hx
      obtain ⟨l1, l2, l3, l4, l5⟩ := hn.linked (N := N)
      rw [e, link_object]
      exact ⟨_, l3, rfl, rfl, rfl, l1, l4, l5⟩
    refine ⟨?_, ?_, ?_, ?_, ?_, ?_⟩
    · rw [← hlen]
      exact hok.depth
    · intro x hx
      obtain ⟨tr, h1, h2, h3, h4, h5, h6, h7⟩ := hlast x hx
      refine ⟨?_, ?_, ⟨-tr.rotation.x, -tr.rotation.y, tr.rotation.z, tr.rotation.w⟩, ?_, ?_⟩
      · simp only [hok.pose.1, unityObject, h1, mirror, Vec3.scale, neg_mul, h2]
      · simp only [hok.pose.2.1, unityObject, h1, h4]
      · simp only [hok.pose.2.2, unityObject, h1]
      · intro v
        rw [← h3]
        simp only [mirror, turnBy, Mat4.rotation, Mat4.applyTo, Vec3.add, Vec3.cross, Vec3.scale, Vec3.mk.injEq]
        refine ⟨by ring, by ring, by ring⟩
    · intro x hx hm
      obtain ⟨tr, h1, h2, h3, h4, h5, h6, h7⟩ := hlast x hx
      obtain ⟨a1, a2, a3, a4, a5, _⟩ := hok.plain (Or.inr (by rw [h6, hm]))
      exact ⟨by rw [← h5]; exact a2, by rw [← hact]; simp only [a1], a3, a4, a5⟩
    · intro x rf rend nm hx hm hb
      obtain ⟨tr, h1, h2, h3, h4, h5, h6, h7⟩ := hlast x hx
      obtain ⟨e1, e2⟩ := (builtinName_mem rf).2 nm hb
      obtain ⟨b1, b2⟩ := hok.builtin tr rf rend h1 (by rw [h6, hm]) (by rw [e1]; exact e2)
      obtain ⟨m, mats, stm, k1, k2, _⟩ := b2.geometry
      refine ⟨?_, b1, ?_, m, k1, ?_⟩
      · rw [b2.name, e1, h5]
      · rw [b2.visible, Bool.and_eq_true, hact]
      · rw [k2, pathMatrix_last _ _ w hne tr h1]
        exact List.map_congr_left fun v _ => by rw [pathMatrix_point, stands_point hw]
    · intro x rf rend hx hm hno
      obtain ⟨tr, h1, h2, h3, h4, h5, h6, h7⟩ := hlast x hx
      have hb : builtinName rf = [] := by
        by_contra hcon
        exact hno _ ((builtinName_mem rf).1 hcon)
      obtain ⟨c1, c2, c3, hf⟩ := hok.fbx tr rf rend h1 (by rw [h6, hm]) hb
      refine ⟨by rw [← hact]; simp only [c1], c2, c3, ?_, ?_, ?_⟩
      · intro hfb
        obtain ⟨f1, f2⟩ := hf.missing hfb
        exact ⟨f2.trans h5, f1⟩
      · intro hfb
        obtain ⟨fb, hfb⟩ := Option.isSome_iff_exists.1 hfb
        rw [(hf.found fb hfb).1, h5]
      · intro o' ho'
        obtain ⟨i, hi, rfl⟩ := List.getElem_of_mem ho'
        obtain ⟨_, d1, tr', rf', rend', e1, e2, _, _, hv⟩ := hok.imported i _ (List.getElem?_eq_getElem hi)
        rw [h6, hm] at e2
        cases e2
        refine ⟨by omega, ?_⟩
        rw [← hact, hv, Bool.and_eq_true]
    · intro x l hx hl
      obtain ⟨tr, h1, h2, h3, h4, h5, h6, h7⟩ := hlast x hx
      refine ⟨_, (hok.lights tr l h1 (by rw [h7, hl])).1, ?_⟩
      intro v
      rw [pathMatrix_last _ _ w hne tr h1, pathMatrix_point, stands_point hw]

end

end Verif.Conv
