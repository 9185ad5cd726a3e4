import Verif.Conv.UnityTree
import Verif.Conv.UnityBodyProps

/-! The lights, bodies, faces and materials of a converted scene with trees of game objects. -/

namespace Verif.Conv

open Verif.Geom
open Verif.Mqo (Object Face PhysicsShape PhysicsBody)
open Verif.Unity (Ptr Heap builtinMesh)

variable {F : Type}

/-- The light of the last game object of a chain. -/
def lightOf (c : List (UNode F)) : Option (ULight F) := c.getLast?.bind fun x => x.parts.findSome? Part.light

/-- A mesh collider of a built-in mesh, or another collider. -/
def UNode.collides (x : UNode F) : Bool :=
  !(x.parts.filterMap Part.box).isEmpty || !(x.parts.filterMap Part.sphere).isEmpty ||
    !(x.parts.filterMap Part.capsule).isEmpty ||
    (x.parts.filterMap Part.meshCollider).any fun rf => builtinTable.any fun e => e.1 = rf

/-- The last game object of a chain has a collider that is converted. -/
def collidesAt (c : List (UNode F)) : Bool := c.getLast?.any UNode.collides

/-- The body `b` is that of the last game object `x` of a chain `c`, bound to the object `o`. -/
structure BodyShown [Field F] (M : UMath F) (opt : UOptions F) (c : List (UNode F)) (x : UNode F) (o : Object F)
    (b : PhysicsBody F) : Prop where
  target : b.targetObjID = o.uid ∧ b.targetBoneID = 0 ∧ b.name = o.name
  given : ∀ y, x.parts.findSome? Part.body = some y → b.mass = y.mass ∧ b.kinematic = y.isKinematic ∧
    b.linearDamping = y.drag ∧ b.angularDamping = y.angularDrag
  default : x.parts.findSome? Part.body = none → b.mass = 1 ∧ b.kinematic = true
  types : b.shapes.map (fun s => s.type) = (x.parts.filterMap Part.box).map (fun _ => "BOX".toList) ++
    (x.parts.filterMap Part.sphere).map (fun _ => "SPHERE".toList) ++
    (x.parts.filterMap Part.capsule).map (fun _ => "CAPSULE".toList) ++
    (x.parts.filterMap Part.meshCollider).filterMap meshType
  /-- the place of a collider whose centre has no `z` -/
  places : ∀ (i : Nat) (v : Vec3 F), ((x.parts.filterMap Part.box).map Prod.fst ++
      (x.parts.filterMap Part.sphere).map Prod.fst ++ (x.parts.filterMap Part.capsule).map Prod.fst)[i]? = some v →
    v.z = 0 → (b.shapes.map fun s => s.position)[i]? = some (mirror ((chainPoint c v).scale opt.convertScale))
  /-- turned and scaled like the game object; boxes only if the scale is the same in all directions -/
  sizes : ∃ G : Mat4 F, (∀ v, G.applyTo v = mirror ((chainPoint c (mirror v)).scale opt.convertScale)) ∧
    (∀ (i : Nat) (s : PhysicsShape F), b.shapes[i]? = some s → i < (x.parts.filterMap Part.box).length +
      (x.parts.filterMap Part.sphere).length + (x.parts.filterMap Part.capsule).length → s.rotation = M.angle G) ∧
    (∀ (i : Nat) (v e : Vec3 F), (x.parts.filterMap Part.box)[i]? = some (v, e) →
      (M.size G).y = (M.size G).x → (M.size G).z = (M.size G).x → (b.shapes[i]?).map (fun s => s.size) =
        some ⟨e.x * (M.size G).x / 2, e.y * (M.size G).y / 2, e.z * (M.size G).z / 2⟩) ∧
    (∀ (i : Nat) (v : Vec3 F) (rad : F), (x.parts.filterMap Part.sphere)[i]? = some (v, rad) →
      (b.shapes[(x.parts.filterMap Part.box).length + i]?).map (fun s => s.size) =
        some ⟨rad * (M.size G).x, rad * (M.size G).y, rad * (M.size G).z⟩) ∧
    ∀ (i : Nat) (v : Vec3 F) (rad height : F), (x.parts.filterMap Part.capsule)[i]? = some (v, rad, height) →
      (b.shapes[(x.parts.filterMap Part.box).length + (x.parts.filterMap Part.sphere).length + i]?).map
        (fun s => s.size) = some ⟨rad * (M.size G).x, (height - 2 * rad) * (M.size G).y, rad * (M.size G).z⟩

/-- What else the document shows of the game objects; `groups` are the objects for the chains. -/
structure PartsShown [Field F] [FloatOps F] (M : UMath F) (sc : UScene F) (opt : UOptions F) (chains : List (List (UNode F)))
    (groups : List (Object F × List (Object F))) (r : UState F) : Prop where
  /-- the lights, each with the number of the object of its game object -/
  lights : r.lights.map (fun e => ((e.1 : Int) + 1, e.2)) =
    (chains.zip groups).filterMap fun e => (lightOf e.1).map fun l => (e.2.1.uid, l)
  nobodies : opt.convertPhysics = false → r.bodies = []
  /-- one body for each game object with a collider -/
  bodies : opt.convertPhysics = true → List.Forall₂ (fun b e => ∃ x, e.1.getLast? = some x ∧ BodyShown M opt e.1 x e.2.1 b)
    r.bodies ((chains.zip groups).filter fun e => collidesAt e.1)
  /-- each GUID of a material has its own place among the materials, where its material is found; the faces of a
  built-in mesh have the corners and texture coordinates of the mesh and the first material of the renderer -/
  faces : ∃ place : Unity.Str → Option Nat,
    (∀ g i, place g = some i → ∃ m, r.materials[i]? = some m ∧ GuidMaterial M sc opt g m) ∧
    (∀ g g' i, place g = some i → place g' = some i → g = g') ∧
    ∀ e ∈ chains.zip groups, ∀ x rf rend n g gs, e.1.getLast? = some x → x.mesh = some (rf, rend) → (rf, n) ∈ builtinTable →
      rend.materials = g :: gs → (∃ i : Nat, place g = some i ∧ ∀ f ∈ e.2.1.faces, f.material = i) ∧
      ∃ m, builtinMesh M.trig true rf.fileID = some m ∧ e.2.1.faces.length = m.faces.length ∧
        ∀ (i : Nat) (f : Face F), e.2.1.faces[i]? = some f → (n = "Cylinder".toList → i < 32) →
          f.verts = ((m.faces[i]?).getD []).map Int.toNat ∧
          f.uvs = ((m.uvs[i]?).getD []).map fun u => ⟨u.1 * (mainScale sc g).x, u.2 * (mainScale sc g).y⟩

section

variable {N : Numbering} {assets : UScene F} {h : Heap F} {n : Nat}

theorem forall₂_zip_mem {α β : Type} {P : α → β → Prop} {l : List α} {l' : List β} (w : List.Forall₂ P l l') :
    ∀ e ∈ l'.zip l, P e.2 e.1 := by
  induction w with
  | nil => intro e he; cases he
  | cons hab _ ih =>
    intro e he
    rw [List.zip_cons_cons] at he
    rcases List.mem_cons.1 he with rfl | he
    · exact hab
    · exact ih e he

theorem forall₂_zip_filterMap {α β γ : Type} {P : α → β → Prop} {l : List α} {l' : List β} (w : List.Forall₂ P l l')
    (f : α → Option γ) (g : β × α → Option γ) (hfg : ∀ a b, P a b → f a = g (b, a)) :
    l.filterMap f = (l'.zip l).filterMap g := by
  induction w with
  | nil => rfl
  | cons hab _ ih => rw [List.zip_cons_cons, List.filterMap_cons, List.filterMap_cons, ih, hfg _ _ hab]

theorem forall₂_zip_filter {α β : Type} {P : α → β → Prop} {l : List α} {l' : List β} (w : List.Forall₂ P l l')
    (f : α → Bool) (g : β × α → Bool) (hfg : ∀ a b, P a b → f a = g (b, a)) :
    List.Forall₂ (fun a e => e.2 = a ∧ P a e.1) (l.filter f) ((l'.zip l).filter g) := by
  induction w with
  | nil => exact .nil
  | @cons a b l l' hab _ ih =>
    rw [List.zip_cons_cons, List.filter_cons, List.filter_cons, hfg _ _ hab]
    split
    · exact .cons ⟨rfl, hab⟩ ih
    · exact ih

theorem forall₂_trans {α β γ : Type} {P : α → β → Prop} {Q : β → γ → Prop} {R : α → γ → Prop}
    (hr : ∀ a b c, P a b → Q b c → R a c) {l : List α} {m : List β} (w : List.Forall₂ P l m) :
    ∀ {k : List γ}, List.Forall₂ Q m k → List.Forall₂ R l k := by
  induction w with
  | nil => intro k hk; cases hk; exact .nil
  | cons hab _ ih =>
    intro k hk
    cases hk with
    | cons hbc hk => exact .cons (hr _ _ _ hab hbc) (ih hk)

theorem stands_getLast {w : List Nat} {c : List (UNode F)} (hw : List.Forall₂ (Stands N h) w c) (hne : w ≠ []) :
    ∃ x p q, c.getLast? = some x ∧ w.getLastD 0 = N.num p ∧ NodeIn h p q x := by
  have hc : c ≠ [] := by
    rintro rfl
    exact hne (by cases hw; rfl)
  obtain ⟨p, q, h1, h2⟩ := stands_last hw _ (List.getLast?_eq_some_getLast hc)
  exact ⟨_, p, q, List.getLast?_eq_some_getLast hc, h1, h2⟩

variable [Field F] [DecidableEq F] [FloatOps F]

theorem linked_parts {M : UMath F} {opt : UOptions F} {ffuel fuel : Nat} {r st : UState F} {zs : List (UOut F)}
    {ls : List (List (List Nat))} {chains : List (List (UNode F))}
    (hd : UDone M (linkScene N assets h n) opt ffuel fuel r zs ls st)
    (hpaths : List.Forall₂ (fun z c => List.Forall₂ (Stands N h) z.1 c) zs chains) :
    PartsShown M assets opt chains (zs.map Prod.snd) r := by
  have hzip : chains.zip (zs.map Prod.snd) = (chains.zip zs).map fun e => (e.1, e.2.2) := by
    rw [List.zip_map_right]
    rfl
  have hw : List.Forall₂ (fun (z : UOut F) c => z.1 ≠ [] ∧ List.Forall₂ (Stands N h) z.1 c) zs chains :=
    forall₂_imp_mem hpaths fun z hz c hc => ⟨isPath_ne (hd.isPath z.1 z.2.1 z.2.2 hz), hc⟩
  obtain ⟨b1, b2⟩ := done_bodies hd
  refine ⟨?_, b1, ?_, ?_⟩
  · rw [hd.result, (withDummy_rest st).2.2.1, hd.run.lights, hzip, List.filterMap_map]
    have e0 : (UState.start : UState F).lights = [] := rfl
    rw [e0, List.map_nil, List.nil_append]
    refine forall₂_zip_filterMap hw _ _ ?_
    rintro z c ⟨hne, hs⟩
    obtain ⟨x, p, q, e1, e2, e3⟩ := stands_getLast hs hne
    obtain ⟨l1, l2, l3, l4, l5⟩ := e3.linked (N := N)
    simp only [Function.comp_apply, lightOf, e1, Option.bind_some, lightAt, e2, link_object, l3, l5, Option.isSome_some, if_true]
  · intro ht
    rw [hzip, List.filter_map, List.forall₂_map_right_iff]
    refine forall₂_trans ?_ (b2 ht) (forall₂_zip_filter hw _ _ ?_)
    · rintro b z ⟨c, z'⟩ hb ⟨rfl, hne, hs⟩
      obtain ⟨x, p, q, e1, e2, e3⟩ := stands_getLast hs hne
      obtain ⟨l1, l2, l3, l4, l5⟩ := e3.bodies (N := N)
      refine ⟨x, e1, ?_⟩
      obtain ⟨t1, t2, t3, t4, t5, G, t6, t7⟩ := hb
      simp only [e2, link_object, l1, l2, l3, l4, l5, stands_point hs] at t1 t2 t3 t4 t5 t6 t7
      exact ⟨t1, t2, t3, t4, t5, G, t6, t7⟩
    · rintro z c ⟨hne, hs⟩
      obtain ⟨x, p, q, e1, e2, e3⟩ := stands_getLast hs hne
      obtain ⟨l1, l2, l3, l4, l5⟩ := e3.bodies (N := N)
      simp only [Function.comp_apply, collidesAt, e1, Option.any_some, hasCollider, UNode.collides, e2, link_object, l1, l2, l3, l4,
        (e3.linked (N := N)).2.2.1, Option.isSome_some, Bool.true_and]
  · obtain ⟨place, m1, m2, m3⟩ := done_materials hd
    refine ⟨place, fun g i hg => ?_, m2, ?_⟩
    · obtain ⟨m, a1, a2⟩ := m1 g i hg
      exact ⟨m, a1, a2.missing, a2.found, a2.rest⟩
    intro e he x rf rend nm g gs hx hm hb hg
    rw [hzip] at he
    obtain ⟨⟨c, z⟩, hz, rfl⟩ := List.mem_map.1 he
    obtain ⟨hne, hs⟩ := forall₂_zip_mem hw _ hz
    have hzm : z ∈ zs := (List.of_mem_zip hz).2
    obtain ⟨x', p, q, e1, e2, e3⟩ := stands_getLast hs hne
    simp only at hx hs e1
    rw [hx] at e1
    cases e1
    obtain ⟨l1, l2, l3, l4, l5⟩ := e3.linked (N := N)
    have k1 : ((linkScene N assets h n).object (z.1.getLastD 0)).transform.isSome = true := by
      rw [e2, link_object, l3]
      rfl
    have k2 : ((linkScene N assets h n).object (z.1.getLastD 0)).mesh = some (rf, rend) := by
      rw [e2, link_object, l4, hm]
    exact ⟨(m3 z.1 z.2.1 z.2.2 hzm _ rfl k1 rf rend nm k2 hb).2.1 g gs hg,
      done_uv hd z.1 z.2.1 z.2.2 hzm _ rfl k1 rf rend nm g gs k2 hb hg⟩

end

end Verif.Conv
