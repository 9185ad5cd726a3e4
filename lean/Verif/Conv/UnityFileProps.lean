import Verif.Conv.UnityFileLemmas
import Verif.Conv.UnitySample
import Verif.Conv.UnityTreeParts
import Mathlib.Data.Nat.Pairing

/-! A Unity scene file is converted to the objects of the game objects it describes, with the instances of prefabs in
it at any depth. -/

namespace Verif.Conv

open Verif.Geom
open Verif.Mqo (Object)
open Verif.Unity

section

variable {F : Type} [Field F] [FloatOps F] [DecidableEq F]

theorem roots_found {trunc : F → Int} {assets : Unity.Str → Option (List (Int × Doc F))}
    (ha : ∀ g ds, assets g = some ds → (ds.map Prod.fst).Nodup) {h : Heap F} {f : UFile F} (w : Here trunc assets h 0 f)
    (L : Loaded trunc assets f.guid f.docs emptyHeap h) (ds : List (Int × Doc F)) : (∀ d ∈ ds, d ∈ f.docs) → ∀ trees : List (FTree F),
    List.Forall₂ (TopAt trunc assets f) trees (ds.filterMap (rootEntry assets f.docs)) → ∃ gs : List (GTree F),
      List.Forall₂ (Gives h) gs trees ∧ (ds.flatMap fun d => (objectsOf h 0 d).filter (isRoot h)) = gs.map GTree.obj := by
  induction ds with
  | nil =>
    intro _ trees ht
    cases ht
    exact ⟨[], .nil, rfl⟩
  | cons d ds ih =>
    intro hm trees ht
    have hr := loaded_root L w.nodup w.file d (hm d List.mem_cons_self)
    rw [show (emptyHeap : Heap F).count = 0 from rfl] at hr
    rw [List.filterMap_cons] at ht
    cases he : rootEntry assets f.docs d with
    | none =>
      rw [he] at ht hr
      obtain ⟨gs, h1, h2⟩ := ih (fun d hd => hm d (List.mem_cons_of_mem _ hd)) trees ht
      exact ⟨gs, h1, by rw [List.flatMap_cons, hr, h2]; rfl⟩
    | some e =>
      rw [he] at ht hr
      cases ht with
      | cons h1 h2 =>
        rename_i t trees
        obtain ⟨gs, h3, h4⟩ := ih (fun d hd => hm d (List.mem_cons_of_mem _ hd)) trees h2
        cases e with
        | inl k =>
          obtain ⟨kt, hat⟩ := h1
          obtain ⟨g, g1, g2, g3⟩ := tree_found ha t 0 f k kt w hat
          refine ⟨g :: gs, .cons g1 h3, ?_⟩
          rw [List.flatMap_cons, hr, h4, List.map_cons, g2]
          rfl
        | inr x =>
          obtain ⟨j, f'⟩ := x
          obtain ⟨k', kt', hroot, hat⟩ := h1
          obtain ⟨j0, d⟩ := d
          have hd := hm _ List.mem_cons_self
          unfold rootEntry at he
          cases d <;> simp only [reduceCtorEq] at he
          case object o => split at he <;> cases he
          case prefab p =>
            split at he
            · rw [Option.map_eq_some_iff] at he
              obtain ⟨y, hy, he⟩ := he
              cases he
              obtain ⟨s', e1, e2, w'⟩ := w.sub ha j _ ⟨p, hd, hy, rfl⟩ hroot.1
              obtain ⟨g, g1, g2, g3⟩ := tree_found ha t s' _ k' kt' w' hat
              refine ⟨g :: gs, .cons g1 h3, ?_⟩
              rw [List.flatMap_cons, hr, h4, List.map_cons, g2]
              simp [objectsOf, e1, w'.root ha k' hroot.2]
            · cases he

/-- C190. A Unity scene file describes trees of game objects. The roots are the game objects without father and the
roots of the instances without parent, in the order of the file. The children of a game object are those its transform
lists, in that order, and then the instances put under it that are not listed. The game objects of an instance are those
of its prefab, with the modifications of the instance. If the scene is loaded and converted, the document has for each
game object, parents before children, one object with its depth, pose, mesh and visibility, followed by the objects
imported for it from an FBX file, and nothing else. The lights and bodies of the document are those of the game objects,
and the faces of built-in meshes have the materials of their renderers. -/
theorem scene_objects (trunc : F → Int) (assets : Unity.Str → Option (List (Int × Doc F)))
    (ha : ∀ g ds, assets g = some ds → (ds.map Prod.fst).Nodup) (fuel : Nat) (guid : Unity.Str) (docs : List (Int × Doc F))
    (hd : (docs.map Prod.fst).Nodup) (h : Heap F) (hl : loadScene trunc assets fuel guid docs emptyHeap = some h)
    (trees : List (FTree F)) (hf : FileShows trunc assets ⟨guid, [], docs⟩ trees)
    (N : Numbering) (sc : UScene F) (M : UMath F) (opt : UOptions F) (ffuel cfuel : Nat) (r : UState F)
    (hc : unityConvert M (linkScene N sc h 0) opt ffuel cfuel = some r) :
    ∃ trees' groups, List.Forall₂ FTree.Same trees trees' ∧ r.objects = groups.flatMap (fun g => g.1 :: g.2) ∧
      List.Forall₂ (ShownAs M sc opt) (fchains trees' []) groups ∧ PartsShown M sc opt (fchains trees' []) groups r := by
  have L := loadScene_ok trunc assets ha fuel guid docs emptyHeap h emptyHeap_ok hd hl
  have w : Here trunc assets h 0 ⟨guid, [], docs⟩ :=
    ⟨⟨_, L.shows⟩, ⟨fuel, emptyHeap, h, emptyHeap_ok, rfl, hl, Keeps.refl _ _⟩, hd, hf.1⟩
  obtain ⟨gs, h1, h2⟩ := roots_found ha w L docs (fun _ h => h) trees hf.2
  obtain ⟨h3, trees', h4, h5⟩ := gives_all h1
  have hr : h.roots 0 = gs.map GTree.obj := by
    rw [← h2, ← List.filter_flatMap]
    exact L.roots
  obtain ⟨zs, ls, st, done⟩ := unity_done M _ opt ffuel cfuel r hc
  have hpaths := linked_paths gs hr h3 done
  obtain ⟨h6, h7⟩ := linked_objects done hpaths
  have h8 := linked_parts done hpaths
  rw [chains_all h5] at h7 h8
  exact ⟨trees', _, h4, h6, h7, h8⟩

end

/-! ### An example -/

local instance ratOpsUnityFile : FloatOps ℚ := ⟨id, fun a b => decide (a < b), fun a b => decide (a ≤ b)⟩

/-- Numbers for the game objects. -/
def sampleNumbering : Numbering where
  num := fun p => Nat.pair p.1 (Nat.pair p.2.toNat (-p.2).toNat)
  ptr := fun n => (n.unpair.1, (n.unpair.2.unpair.1 : Int) - (n.unpair.2.unpair.2 : Int))
  inv := by
    rintro ⟨s, k⟩
    simp only [Nat.unpair_pair, Prod.mk.injEq, true_and]
    omega

/-- A scene: a room that is a cube and has a light and a collider, with a wall, a lamp that is listed through a placeholder and a changed lamp that is
not listed; and a desk. -/
def flatDocs : List (Int × Doc ℚ) :=
  [(1, .object ⟨"room".toList, 1, [here 2, here 40, here 41, here 42, here 43, here 44], none, none⟩), (2, .transform (plainTransform 1 0 [4, 50])),
   (40, .other (.filter (some ⟨10202, builtinGUID, 0⟩))), (41, .renderer 1 [some ⟨2100000, "aa".toList, 2⟩]),
   (42, .other (.light 2 ⟨1, 1, 0, 1⟩ 3 10 30 20)), (43, .other (.sphere ⟨1, 0, 0⟩ 2)), (44, .other (.body 5 (1 / 2) 0 0)),
   (3, .object ⟨"wall".toList, 0, [here 4], none, none⟩), (4, .transform (plainTransform 3 2 [])),
   (5, .prefab ⟨[setNumber 11 "m_LocalPosition" "x" 7, setNumber 11 "m_LocalPosition" "x" 8,
      ⟨some ⟨12, "lamp".toList, 3⟩, "m_Name".toList, .none, .text "red".toList, none⟩],
      some (here 2), some ⟨100, "lamp".toList, 3⟩⟩),
   (6, .prefab ⟨[], some (here 2), some ⟨100, "lamp".toList, 3⟩⟩),
   (50, .transform ⟨here 0, some ⟨11, "lamp".toList, 3⟩, some (here 6), here 0, [], ⟨0, 0, 0⟩, ⟨0, 0, 0, 1⟩, ⟨1, 1, 1⟩, []⟩),
   (7, .prefab ⟨[], some (here 0), some ⟨100, "desk".toList, 3⟩⟩)]

/-- A game object with the pose of `plainTransform`. -/
def flatNode (name : String) (x : ℚ) (active : Bool) (parts : List (Part ℚ)) : UNode ℚ :=
  ⟨name.toList, active, ⟨x, 2, 3⟩, ⟨0, 0, 0, 1⟩, ⟨1, 1, 1⟩, parts⟩

/-- A lamp. -/
def flatLamp (x : ℚ) (bulb : String) : FTree ℚ :=
  .node (flatNode "lamp" x true []) [.node (flatNode bulb 1 true [.renderer 1 [none, none]]) [] []] []

/-- What the scene describes. -/
def flatTrees : List (FTree ℚ) :=
  [.node (flatNode "room" 1 true [.comp (.filter (some ⟨10202, builtinGUID, 0⟩)), .renderer 1 [some ⟨2100000, "aa".toList, 2⟩],
      .comp (.light 2 ⟨1, 1, 0, 1⟩ 3 10 30 20), .comp (.sphere ⟨1, 0, 0⟩ 2), .comp (.body 5 (1 / 2) 0 0)])
    [.node (flatNode "wall" 1 false []) [] [], flatLamp 1 "bulb"] [flatLamp 8 "red"],
   .node (flatNode "desk" 1 true []) [] [flatLamp 1 "bulb"]]

/-- The loaded scene. -/
def flatScene : Option (Heap ℚ) := loadScene sampleTrunc sampleAssets 5 "room".toList flatDocs emptyHeap

theorem lampDocs_ok : FileOk lampDocs where
  zero := by decide +kernel
  parents := by
    intro k p par hm
    simp [lampDocs] at hm
  own := by
    intro k o hm
    simp only [lampDocs, List.mem_cons, Prod.mk.injEq, Doc.object.injEq, reduceCtorEq, and_false, false_or, or_false, List.not_mem_nil] at hm
    rcases hm with ⟨rfl, rfl⟩ | ⟨rfl, rfl⟩ <;> exact Or.inr rfl

theorem deskDocs_ok : FileOk deskDocs where
  zero := by decide +kernel
  parents := by
    intro k p par hm hp _
    simp only [deskDocs, List.mem_cons, Prod.mk.injEq, Doc.prefab.injEq, reduceCtorEq, and_false, false_or, or_false, List.not_mem_nil] at hm
    obtain ⟨rfl, rfl⟩ := hm
    cases hp
    exact ⟨_, .tail _ (.head _), by decide⟩
  own := by
    intro k o hm
    simp only [deskDocs, List.mem_cons, Prod.mk.injEq, Doc.object.injEq, reduceCtorEq, and_false, false_or, or_false, List.not_mem_nil] at hm
    obtain ⟨rfl, rfl⟩ := hm
    exact Or.inr rfl

theorem flatDocs_ok : FileOk flatDocs where
  zero := by decide +kernel
  parents := by
    intro k p par hm hp h0
    simp only [flatDocs, List.mem_cons, Prod.mk.injEq, Doc.prefab.injEq, reduceCtorEq, and_false, false_or, or_false, List.not_mem_nil] at hm
    rcases hm with ⟨rfl, rfl⟩ | ⟨rfl, rfl⟩ | ⟨rfl, rfl⟩ <;> cases hp
    · exact ⟨_, .tail _ (.head _), by decide⟩
    · exact ⟨_, .tail _ (.head _), by decide⟩
    · exact absurd rfl h0
  own := by
    intro k o hm
    simp only [flatDocs, List.mem_cons, Prod.mk.injEq, Doc.object.injEq, reduceCtorEq, and_false, false_or, or_false, List.not_mem_nil] at hm
    rcases hm with ⟨rfl, rfl⟩ | ⟨rfl, rfl⟩ <;> exact Or.inr rfl

theorem lamp_root : RootIs sampleAssets lampDocs 10 := ⟨lampDocs_ok, rfl⟩

theorem desk_root : RootIs sampleAssets deskDocs 20 := ⟨deskDocs_ok, rfl⟩

theorem bulb_at (guid : Unity.Str) (mods : List (Modification ℚ)) (x : UNode ℚ)
    (hx : ObjectAt sampleTrunc ⟨guid, mods, lampDocs⟩ 12 13 ⟨"bulb".toList, 1, [here 13, here 14], none, none⟩ (plainTransform 12 11 []) x) :
    (FTree.node x [] []).At sampleTrunc sampleAssets ⟨guid, mods, lampDocs⟩ 12 13 :=
  ⟨_, _, hx, rfl, rfl⟩

theorem lamp_at : (flatLamp 1 "bulb").At sampleTrunc sampleAssets ⟨"lamp".toList, [], lampDocs⟩ 10 11 := by
  refine ⟨⟨"lamp".toList, 1, [here 11], none, none⟩, plainTransform 10 0 [13], ⟨.head _, rfl, rfl, rfl, .tail _ (.head _), rfl, rfl, rfl, rfl, rfl, rfl, rfl, rfl⟩,
    ⟨13, [], rfl, Or.inl ⟨12, bulb_at _ _ _ ?_⟩, rfl⟩, rfl⟩
  exact ⟨.tail _ (.tail _ (.head _)), rfl, rfl, rfl, .tail _ (.tail _ (.tail _ (.head _))), rfl, rfl, rfl, rfl, rfl, rfl, rfl, rfl⟩

/-- The changes of the second lamp. -/
def redMods : List (Modification ℚ) :=
  [setNumber 11 "m_LocalPosition" "x" 7, setNumber 11 "m_LocalPosition" "x" 8,
      ⟨some ⟨12, "lamp".toList, 3⟩, "m_Name".toList, .none, .text "red".toList, none⟩]

theorem red_at : (flatLamp 8 "red").At sampleTrunc sampleAssets ⟨"lamp".toList, redMods, lampDocs⟩ 10 11 := by
  refine ⟨⟨"lamp".toList, 1, [here 11], none, none⟩, plainTransform 10 0 [13], ⟨.head _, rfl, rfl, rfl, .tail _ (.head _), rfl, rfl, by decide +kernel, by decide +kernel, by decide +kernel, by decide +kernel, by decide +kernel, rfl⟩,
    ⟨13, [], rfl, Or.inl ⟨12, bulb_at _ _ _ ?_⟩, rfl⟩, rfl⟩
  exact ⟨.tail _ (.tail _ (.head _)), rfl, rfl, rfl, .tail _ (.tail _ (.tail _ (.head _))), rfl, rfl, by decide +kernel, by decide +kernel, by decide +kernel, by decide +kernel, by decide +kernel, rfl⟩

theorem flat_shows : FileShows sampleTrunc sampleAssets ⟨"room".toList, [], flatDocs⟩ flatTrees := by
  refine ⟨flatDocs_ok, ?_⟩
  have e : flatDocs.filterMap (rootEntry sampleAssets flatDocs) = [.inl 1, .inr (7, ⟨"desk".toList, [], deskDocs⟩)] := rfl
  show List.Forall₂ _ flatTrees (flatDocs.filterMap (rootEntry sampleAssets flatDocs))
  rw [e]
  refine .cons ⟨2, ?_⟩ (.cons ⟨20, 21, desk_root, ?_⟩ .nil)
  · refine ⟨⟨"room".toList, 1, [here 2, here 40, here 41, here 42, here 43, here 44], none, none⟩, plainTransform 1 0 [4, 50],
      ⟨.head _, rfl, rfl, rfl, .tail _ (.head _), rfl, rfl, rfl, rfl, rfl, rfl, rfl, rfl⟩,
      ⟨4, [50], rfl, Or.inl ⟨3, ?_⟩, ⟨50, [], rfl, Or.inr ⟨6, 11, 10, ⟨"lamp".toList, [], lampDocs⟩, ?_, ?_, lamp_root, lamp_at⟩, rfl⟩⟩,
      ⟨5, ⟨"lamp".toList, redMods, lampDocs⟩, [], rfl, ⟨10, 11, lamp_root, red_at⟩, rfl⟩⟩
    · refine ⟨⟨"wall".toList, 0, [here 4], none, none⟩, plainTransform 3 2 [],
        ⟨by simp [flatDocs], rfl, rfl, rfl, by simp [flatDocs], rfl, rfl, rfl, rfl, rfl, rfl, rfl, rfl⟩, rfl, rfl⟩
    · exact ⟨⟨here 0, some ⟨11, "lamp".toList, 3⟩, some (here 6), here 0, [], ⟨0, 0, 0⟩, ⟨0, 0, 0, 1⟩, ⟨1, 1, 1⟩, []⟩,
        ⟨11, "lamp".toList, 3⟩, here 6, by simp [flatDocs], rfl, rfl, rfl, by decide, by decide, rfl, rfl⟩
    · exact ⟨⟨[], some (here 2), some ⟨100, "lamp".toList, 3⟩⟩, by simp [flatDocs], rfl, rfl⟩
  · exact ⟨⟨"desk".toList, 1, [here 21], none, none⟩, plainTransform 20 0 [],
      ⟨.head _, rfl, rfl, rfl, .tail _ (.head _), rfl, rfl, rfl, rfl, rfl, rfl, rfl, rfl⟩, rfl,
      ⟨30, ⟨"lamp".toList, [], lampDocs⟩, [], rfl, ⟨10, 11, lamp_root, lamp_at⟩, rfl⟩⟩

/-- The hypotheses are met, and the scene is converted. -/
example : (flatDocs.map Prod.fst).Nodup ∧ flatScene.isSome = true ∧
    FileShows sampleTrunc sampleAssets ⟨"room".toList, [], flatDocs⟩ flatTrees ∧
    ((flatScene.bind fun h => unityConvert sampleMath (linkScene sampleNumbering sampleUnity h 0) sampleOptions 6 5).map
      fun r => r.objects.map fun o => (o.name, o.depth, o.visible, o.vertexes.length)) =
        some [("room(Cube)".toList, 0, true, 8), ("wall".toList, 1, false, 0), ("lamp".toList, 1, true, 0), ("bulb".toList, 2, true, 0),
          ("lamp".toList, 1, true, 0), ("red".toList, 2, true, 0), ("desk".toList, 0, true, 0), ("lamp".toList, 1, true, 0), ("bulb".toList, 2, true, 0)] :=
  ⟨by decide, by decide +kernel, flat_shows, by decide +kernel⟩

/-- The converted scene. -/
def flatResult : Option (UState ℚ) :=
  flatScene.bind fun h => unityConvert sampleMath (linkScene sampleNumbering sampleUnity h 0) sampleOptions 6 5

/-- The light and the body of the room. -/
example : flatResult.map (fun r => r.lights.map fun e => (e.1, e.2.intensity)) = some [(0, 3)] := by decide +kernel

example : flatResult.map (fun r => r.bodies.map fun b => (b.targetObjID, b.mass, b.kinematic)) = some [(1, 5, false)] := by
  decide +kernel

example : flatResult.map (fun r => r.bodies.map fun b => b.shapes.map fun s => s.position) = some [[⟨20, 20, -30⟩]] := by
  decide +kernel

end Verif.Conv
