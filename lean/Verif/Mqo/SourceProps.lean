import Verif.Mqo.SourceDoc
import Verif.Mqo.TextProps
import Mathlib.Data.List.Perm.Basic
import Mathlib.Data.List.Induction

/-!
Reading MQO texts of other programs (C182, C183): what the text says is read, parts with unknown names are passed
over wherever they are, and the order of attributes and entries is of no importance.
-/

namespace Verif.Mqo

open Verif.Geom Verif.Text

section
variable {F : Type} [Zero F] [One F] [Neg F] [Mul F] [NumText F]

/-! ## What is in a text -/

/-- The objects of the text, in order. -/
def objectsOf (l : List Chunk) : List ObjSrc :=
  l.filterMap fun c => match c with
    | .object o => some o
    | _ => none

/-- The materials of all material lists of the text, in order. -/
def materialsOf (l : List Chunk) : List MatSrc :=
  l.flatMap fun c => match c with
    | .materials m => m
    | _ => []

/-- The last scene of the text. -/
def sceneOf (l : List Chunk) : Option (List SceneEntry) :=
  (l.filterMap fun c => match c with
    | .scene s => some s
    | _ => none).getLast?

/-- The second parts of materials, in order, each with the number of materials before it. -/
def exesFrom : Nat → List Chunk → List (Nat × ExSrc)
  | _, [] => []
  | n, .materials m :: l => exesFrom (n + m.length) l
  | n, .ex es :: l => es.map (fun e => (n, e)) ++ exesFrom n l
  | n, .scene _ :: l => exesFrom n l
  | n, .object _ :: l => exesFrom n l
  | n, .thumb _ :: l => exesFrom n l
  | n, .xml _ :: l => exesFrom n l
  | n, .other _ :: l => exesFrom n l

/-- The last second part of the material with number `k` that is behind the material. -/
def lastFor (es : List (Nat × ExSrc)) (k : Nat) : Option ExSrc :=
  ((es.filter fun p => p.2.index == k && decide (k < p.1)).getLast?).map Prod.snd

/-- The materials of the text. -/
def fullMaterials (l : List Chunk) : List (Material F) :=
  (materialsOf l).zipIdx.map fun p => { p.1.meaning with ex2 := (lastFor (exesFrom 0 l) p.2).map ExSrc.meaning }

/-! ## Parts that are not known -/

def MatAttr.known : MatAttr → Bool
  | .other .. => false
  | _ => true

def FaceAttr.known : FaceAttr → Bool
  | .other .. => false
  | _ => true

def VertexEntry.known : VertexEntry → Bool
  | .other _ => false
  | _ => true

def ObjEntry.known : ObjEntry → Bool
  | .other _ => false
  | _ => true

def SceneEntry.known : SceneEntry → Bool
  | .other _ => false
  | _ => true

def ExEntry.known : ExEntry → Bool
  | .other _ => false
  | _ => true

def ExSrc.strip (e : ExSrc) : ExSrc := ⟨e.index, e.entries.filter ExEntry.known⟩

def MatSrc.strip (m : MatSrc) : MatSrc := ⟨m.name, m.attrs.filter MatAttr.known⟩

def FaceSrc.strip (f : FaceSrc) : FaceSrc := ⟨f.corners, f.attrs.filter FaceAttr.known⟩

def ObjEntry.strip : ObjEntry → ObjEntry
  | .face l => .face (l.map FaceSrc.strip)
  | .vertexattr l => .vertexattr (l.filter VertexEntry.known)
  | e => e

def ObjSrc.strip (o : ObjSrc) : ObjSrc := ⟨o.name, (o.entries.filter ObjEntry.known).map ObjEntry.strip⟩

/-- The chunk without the parts that are not known. -/
def Chunk.strip : Chunk → List Chunk
  | .scene l => [.scene (l.filter SceneEntry.known)]
  | .materials l => [.materials (l.map MatSrc.strip)]
  | .object o => [.object o.strip]
  | .ex l => [.ex (l.map ExSrc.strip)]
  | .thumb _ => []
  | .xml file => [.xml file]
  | .other _ => []

/-! ## The same in another order -/

/-- No name of `known` occurs twice. -/
def Once {β : Type} (name : β → Str) (known : List Str) (l : List β) : Prop :=
  ∀ w ∈ known, (l.filter fun b => name b == w).length ≤ 1

def Unknown.key : Unknown → Str
  | .line key _ => key
  | .block key _ _ => key

def SceneEntry.name : SceneEntry → Str
  | .pos _ => "pos".toList
  | .lookat _ => "lookat".toList
  | .head _ => "head".toList
  | .pich _ => "pich".toList
  | .bank _ => "bank".toList
  | .ortho _ => "ortho".toList
  | .zoom2 _ => "zoom2".toList
  | .amb _ => "amb".toList
  | .frontclip _ => "frontclip".toList
  | .backclip _ => "backclip".toList
  | .other u => u.key

def ObjEntry.name : ObjEntry → Str
  | .uid _ => "uid".toList
  | .depth _ => "depth".toList
  | .folding _ => "folding".toList
  | .visible _ => "visible".toList
  | .shading _ => "shading".toList
  | .facet _ => "facet".toList
  | .patch _ => "patch".toList
  | .segment _ => "segment".toList
  | .mirror _ => "mirror".toList
  | .mirrorDis _ => "mirror_dis".toList
  | .scale _ => "scale".toList
  | .rotation _ => "rotation".toList
  | .translation _ => "translation".toList
  | .color _ => "color".toList
  | .vertex _ => "vertex".toList
  | .face _ => "face".toList
  | .vertexattr _ => "vertexattr".toList
  | .other u => u.key

/-- The same attributes in some order. -/
def MatSrc.Same (a b : MatSrc) : Prop :=
  a.name = b.name ∧ a.attrs.Perm b.attrs ∧ Once MatAttr.name materialKeys a.attrs

def FaceSrc.Same (a b : FaceSrc) : Prop :=
  a.corners = b.corners ∧ a.attrs.Perm b.attrs ∧ Once FaceAttr.name faceKeys a.attrs

/-- The same entry, with the attributes of its faces in some order. -/
def ObjEntry.Same (a b : ObjEntry) : Prop :=
  a = b ∨ ∃ l l', a = .face l ∧ b = .face l' ∧ List.Forall₂ FaceSrc.Same l l'

/-- The same entries in some order. -/
def ObjSrc.Same (a b : ObjSrc) : Prop :=
  a.name = b.name ∧ Once ObjEntry.name objectKeys a.entries ∧
    ∃ m, a.entries.Perm m ∧ List.Forall₂ ObjEntry.Same m b.entries

/-- The same chunk, with its parts in some order. -/
inductive Chunk.Same : Chunk → Chunk → Prop
  | scene {l l' : List SceneEntry} : l.Perm l' → Once SceneEntry.name sceneKeys l → Chunk.Same (.scene l) (.scene l')
  | materials {l l' : List MatSrc} : List.Forall₂ MatSrc.Same l l' → Chunk.Same (.materials l) (.materials l')
  | object {o o' : ObjSrc} : o.Same o' → Chunk.Same (.object o) (.object o')
  | ex (l : List ExSrc) : Chunk.Same (.ex l) (.ex l)
  | thumb (t t' : Thumb) : Chunk.Same (.thumb t) (.thumb t')
  | xml (file : Str) : Chunk.Same (.xml file) (.xml file)
  | other (l l' : List (Inner × Str)) : Chunk.Same (.other l) (.other l')

/-! ## Lemmas -/

theorem foldl_strip {σ β : Type} (step : σ → β → σ) (known : β → Bool) (h : ∀ x b, known b = false → step x b = x)
    (l : List β) (x : σ) : (l.filter known).foldl step x = l.foldl step x := by
  induction l generalizing x with
  | nil => rfl
  | cons b l ih =>
    cases hb : known b with
    | true => rw [List.filter_cons_of_pos hb, List.foldl_cons, List.foldl_cons, ih]
    | false => rw [List.filter_cons_of_neg (by simp [hb]), List.foldl_cons, h x b hb, ih]

theorem matSrc_strip (m : MatSrc) : (m.strip.meaning : Material F) = m.meaning := by
  refine foldl_strip _ _ ?_ m.attrs _
  intro x b hb
  cases b <;> first | rfl | simp [MatAttr.known] at hb

theorem faceSrc_strip (f : FaceSrc) : (f.strip.meaning : Face F) = f.meaning := by
  refine foldl_strip _ _ ?_ f.attrs _
  intro x b hb
  cases b <;> first | rfl | simp [FaceAttr.known] at hb

theorem objEntry_strip (e : ObjEntry) (o : Object F) : e.strip.set o = e.set o := by
  cases e with
  | face l =>
    simp only [ObjEntry.strip, ObjEntry.set, List.map_map]
    congr 1
    exact List.map_congr_left fun f _ => faceSrc_strip f
  | vertexattr l =>
    refine foldl_strip _ _ ?_ l o
    intro x b hb
    cases b <;> first | rfl | simp [VertexEntry.known] at hb
  | _ => rfl

theorem objSrc_strip (o : ObjSrc) : (o.strip.meaning : Object F) = o.meaning := by
  have h1 : ∀ (l : List ObjEntry) (x : Object F), (l.map ObjEntry.strip).foldl ObjEntry.set x = l.foldl ObjEntry.set x := by
    intro l
    induction l with
    | nil => intro x; rfl
    | cons e l ih => intro x; rw [List.map_cons, List.foldl_cons, List.foldl_cons, objEntry_strip, ih]
  unfold ObjSrc.meaning ObjSrc.strip
  rw [h1]
  refine foldl_strip _ _ ?_ o.entries _
  intro x b hb
  cases b <;> first | rfl | simp [ObjEntry.known] at hb

theorem exSrc_strip (e : ExSrc) : (e.strip.meaning : Ex2 F) = e.meaning := by
  refine foldl_strip _ _ ?_ e.entries _
  intro x b hb
  cases b <;> first | rfl | simp [ExEntry.known] at hb

theorem exes_strip (l : List ExSrc) (ms : List (Material F)) :
    (l.map ExSrc.strip).foldl ExSrc.put ms = l.foldl ExSrc.put ms := by
  induction l generalizing ms with
  | nil => rfl
  | cons e l ih =>
    rw [List.map_cons, List.foldl_cons, List.foldl_cons, ih]
    simp only [ExSrc.put, exSrc_strip]
    rfl

theorem chunk_strip (c : Chunk) (d : Document F) : c.strip.foldl Chunk.add d = c.add d := by
  cases c with
  | scene l =>
    simp only [Chunk.strip, List.foldl_cons, List.foldl_nil, Chunk.add]
    congr 2
    refine foldl_strip _ _ ?_ l _
    intro x b hb
    cases b <;> first | rfl | simp [SceneEntry.known] at hb
  | materials l =>
    simp only [Chunk.strip, List.foldl_cons, List.foldl_nil, Chunk.add, List.map_map]
    congr 2
    exact List.map_congr_left fun m _ => matSrc_strip m
  | object o => simp only [Chunk.strip, List.foldl_cons, List.foldl_nil, Chunk.add, objSrc_strip]
  | ex l => simp only [Chunk.strip, List.foldl_cons, List.foldl_nil, Chunk.add, exes_strip]
  | thumb t => rfl
  | xml file => rfl
  | other l => rfl

theorem meaning_strip (l : List Chunk) : (meaning (l.flatMap Chunk.strip) : Document F) = meaning l := by
  unfold meaning
  generalize (⟨none, [], [], none, none, none⟩ : Document F) = d
  induction l generalizing d with
  | nil => rfl
  | cons c l ih => rw [List.flatMap_cons, List.foldl_append, chunk_strip, ih, List.foldl_cons]

theorem once_eq {β : Type} {name : β → Str} {known : List Str} {l : List β} (h : Once name known l) {a b : β}
    (ha : a ∈ l) (hb : b ∈ l) (hn : name a = name b) (hk : name a ∈ known) : a = b := by
  have h1 := h _ hk
  have m1 : a ∈ l.filter fun c => name c == name a := by simp [ha]
  have m2 : b ∈ l.filter fun c => name c == name a := by simp [hb, hn]
  match hl : l.filter (fun c => name c == name a), h1, m1, m2 with
  | [], _, m1, _ => simp at m1
  | [c], _, m1, m2 => rw [List.mem_singleton.1 m1, List.mem_singleton.1 m2]
  | c :: d :: r, h1, _, _ => simp at h1

/-- Parts of other names can be exchanged. -/
theorem perm_foldl {σ β : Type} {step : σ → β → σ} {name : β → Str} {known : List Str} {l l' : List β}
    (hp : l.Perm l') (ho : Once name known l)
    (hc : ∀ a b x, (name a = name b → name a ∈ known → a = b) → step (step x a) b = step (step x b) a) (x : σ) :
    l.foldl step x = l'.foldl step x := by
  refine hp.foldl_eq' ?_ x
  intro a ha b hb x
  exact hc a b x fun h1 h2 => once_eq ho ha hb h1 h2

theorem matAttr_comm (a b : MatAttr) (m : Material F) (h : a.name = b.name → a.name ∈ materialKeys → a = b) :
    (b.set (a.set m)) = (a.set (b.set m)) := by
  cases a <;> cases b <;> first | (simp only [MatAttr.set]; done) | rw [h rfl (by simp only [MatAttr.name]; decide)]

theorem faceAttr_comm (a b : FaceAttr) (f : Face F) (h : a.name = b.name → a.name ∈ faceKeys → a = b) :
    (b.set (a.set f)) = (a.set (b.set f)) := by
  cases a <;> cases b <;> first | (simp only [FaceAttr.set]; done) | rw [h rfl (by simp only [FaceAttr.name]; decide)]

theorem sceneEntry_name (e : SceneEntry) (h : e.known = true) : e.name ∈ sceneKeys := by
  cases e with
  | pos _ => exact (by decide : "pos".toList ∈ sceneKeys)
  | lookat _ => exact (by decide : "lookat".toList ∈ sceneKeys)
  | head _ => exact (by decide : "head".toList ∈ sceneKeys)
  | pich _ => exact (by decide : "pich".toList ∈ sceneKeys)
  | bank _ => exact (by decide : "bank".toList ∈ sceneKeys)
  | ortho _ => exact (by decide : "ortho".toList ∈ sceneKeys)
  | zoom2 _ => exact (by decide : "zoom2".toList ∈ sceneKeys)
  | amb _ => exact (by decide : "amb".toList ∈ sceneKeys)
  | frontclip _ => exact (by decide : "frontclip".toList ∈ sceneKeys)
  | backclip _ => exact (by decide : "backclip".toList ∈ sceneKeys)
  | other u => exact absurd h (by simp [SceneEntry.known])

theorem sceneEntry_comm (a b : SceneEntry) (s : Scene F) (h : a.name = b.name → a.name ∈ sceneKeys → a = b) :
    (b.set (a.set s)) = (a.set (b.set s)) := by
  cases a <;> cases b <;> first | (simp only [SceneEntry.set]; done) | rw [h rfl (sceneEntry_name _ rfl)]

/-- The ids of the entries of `vertexattr`. -/
def entryIds (m : List (Int × Int)) : VertexEntry → List (Int × Int)
  | .uid l => idsOf 0 l m
  | .other _ => m

omit [Zero F] [One F] [Neg F] [Mul F] [NumText F] in
theorem foldl_entryIds (l : List VertexEntry) (o : Object F) :
    l.foldl VertexEntry.set o = { o with vertexByUID := l.foldl entryIds o.vertexByUID } := by
  induction l generalizing o with
  | nil => rfl
  | cons e l ih =>
    rw [List.foldl_cons, ih]
    cases e <;> rfl

theorem objEntry_name (e : ObjEntry) (h : e.known = true) : e.name ∈ objectKeys := by
  cases e with
  | uid _ => exact (by decide : "uid".toList ∈ objectKeys)
  | depth _ => exact (by decide : "depth".toList ∈ objectKeys)
  | folding _ => exact (by decide : "folding".toList ∈ objectKeys)
  | visible _ => exact (by decide : "visible".toList ∈ objectKeys)
  | shading _ => exact (by decide : "shading".toList ∈ objectKeys)
  | facet _ => exact (by decide : "facet".toList ∈ objectKeys)
  | patch _ => exact (by decide : "patch".toList ∈ objectKeys)
  | segment _ => exact (by decide : "segment".toList ∈ objectKeys)
  | mirror _ => exact (by decide : "mirror".toList ∈ objectKeys)
  | mirrorDis _ => exact (by decide : "mirror_dis".toList ∈ objectKeys)
  | scale _ => exact (by decide : "scale".toList ∈ objectKeys)
  | rotation _ => exact (by decide : "rotation".toList ∈ objectKeys)
  | translation _ => exact (by decide : "translation".toList ∈ objectKeys)
  | color _ => exact (by decide : "color".toList ∈ objectKeys)
  | vertex _ => exact (by decide : "vertex".toList ∈ objectKeys)
  | face _ => exact (by decide : "face".toList ∈ objectKeys)
  | vertexattr _ => exact (by decide : "vertexattr".toList ∈ objectKeys)
  | other u => exact absurd h (by simp [ObjEntry.known])

theorem objEntry_comm (a b : ObjEntry) (o : Object F) (h : a.name = b.name → a.name ∈ objectKeys → a = b) :
    (b.set (a.set o)) = (a.set (b.set o)) := by
  cases a <;> cases b <;>
    first
    | (simp only [ObjEntry.set, foldl_entryIds]; done)
    | rw [h rfl (objEntry_name _ rfl)]

theorem matSrc_same {a b : MatSrc} (h : a.Same b) : (a.meaning : Material F) = b.meaning := by
  obtain ⟨h1, h2, h3⟩ := h
  unfold MatSrc.meaning
  rw [h1]
  exact perm_foldl h2 h3 (fun a b x h => matAttr_comm a b x h) _

theorem faceSrc_same {a b : FaceSrc} (h : a.Same b) : (a.meaning : Face F) = b.meaning := by
  obtain ⟨_, h2, h3⟩ := h
  exact perm_foldl h2 h3 (fun a b x h => faceAttr_comm a b x h) _

theorem map_same {α β γ : Type} {R : α → β → Prop} {f : α → γ} {g : β → γ} (h : ∀ a b, R a b → f a = g b)
    {l : List α} {l' : List β} (hl : List.Forall₂ R l l') : l.map f = l'.map g := by
  induction hl with
  | nil => rfl
  | cons h1 _ ih => rw [List.map_cons, List.map_cons, h _ _ h1, ih]

theorem objEntry_same {a b : ObjEntry} (h : a.Same b) (o : Object F) : a.set o = b.set o := by
  rcases h with rfl | ⟨l, l', rfl, rfl, h⟩
  · rfl
  · simp only [ObjEntry.set]
    rw [map_same (fun a b h => faceSrc_same h) h]

theorem objSrc_same {a b : ObjSrc} (h : a.Same b) : (a.meaning : Object F) = b.meaning := by
  obtain ⟨h1, h2, m, h3, h4⟩ := h
  unfold ObjSrc.meaning
  rw [h1, perm_foldl h3 h2 fun a b x h => objEntry_comm a b x h]
  generalize (newObject NumText.facet b.name : Object F) = o
  have key : ∀ (l l' : List ObjEntry), List.Forall₂ ObjEntry.Same l l' → ∀ o : Object F,
      l.foldl ObjEntry.set o = l'.foldl ObjEntry.set o := by
    intro l l' h
    induction h with
    | nil => intro o; rfl
    | cons h1 _ ih => intro o; rw [List.foldl_cons, List.foldl_cons, objEntry_same h1, ih]
  exact key _ _ h4 o

theorem chunk_same {a b : Chunk} (h : a.Same b) (d : Document F) : a.add d = b.add d := by
  cases h with
  | scene hp ho =>
    simp only [Chunk.add]
    rw [perm_foldl hp ho fun a b x h => sceneEntry_comm a b x h]
  | materials h =>
    simp only [Chunk.add]
    rw [map_same (fun a b h => matSrc_same h) h]
  | object h =>
    simp only [Chunk.add]
    rw [objSrc_same h]
  | ex l => rfl
  | thumb t t' => rfl
  | xml file => rfl
  | other l l' => rfl

theorem meaning_same {l l' : List Chunk} (h : List.Forall₂ Chunk.Same l l') : (meaning l : Document F) = meaning l' := by
  unfold meaning
  generalize (⟨none, [], [], none, none, none⟩ : Document F) = d
  induction h generalizing d with
  | nil => rfl
  | cons h1 _ ih => rw [List.foldl_cons, List.foldl_cons, chunk_same h1, ih]

theorem matSrc_ex2 (m : MatSrc) : (m.meaning : Material F).ex2 = none := by
  unfold MatSrc.meaning
  suffices h : ∀ (l : List MatAttr) (x : Material F), x.ex2 = none → (l.foldl MatAttr.set x).ex2 = none from h _ _ rfl
  intro l
  induction l with
  | nil => intro x h; exact h
  | cons a l ih =>
    intro x h
    rw [List.foldl_cons]
    refine ih _ ?_
    cases a <;> exact h

/-- Materials with the second parts of the list. -/
def withExes (ms : List MatSrc) (es : List (Nat × ExSrc)) : List (Material F) :=
  ms.zipIdx.map fun p => { p.1.meaning with ex2 := (lastFor es p.2).map ExSrc.meaning }

theorem withExes_get (ms : List MatSrc) (es : List (Nat × ExSrc)) (k : Nat) :
    (withExes ms es : List (Material F))[k]?
      = ms[k]?.map fun m => { m.meaning with ex2 := (lastFor es k).map ExSrc.meaning } := by
  simp only [withExes, List.getElem?_map, List.getElem?_zipIdx, Option.map_map, Nat.zero_add]
  rfl

theorem lastFor_snoc (es : List (Nat × ExSrc)) (n : Nat) (e : ExSrc) (k : Nat) (hk : k < n) :
    lastFor (es ++ [(n, e)]) k = if e.index = k then some e else lastFor es k := by
  unfold lastFor
  rw [List.filter_append]
  by_cases h : e.index = k
  · rw [if_pos h]
    simp [h, hk]
  · rw [if_neg h]
    simp [h]

theorem put_withExes (ms : List MatSrc) (es : List (Nat × ExSrc)) (e : ExSrc) :
    e.put (withExes ms es : List (Material F)) = withExes ms (es ++ [(ms.length, e)]) := by
  refine List.ext_getElem? fun k => ?_
  rw [ExSrc.put, List.getElem?_modify, withExes_get, withExes_get]
  cases hm : ms[k]? with
  | none => rfl
  | some m =>
    have hk : k < ms.length := (List.getElem?_eq_some_iff.1 hm).1
    rw [lastFor_snoc es _ e k hk]
    simp only [Option.map_some, Option.map_eq_map]
    by_cases h : e.index = k
    · simp [h]
    · simp [h]

theorem puts_withExes (ms : List MatSrc) (l : List ExSrc) (es : List (Nat × ExSrc)) :
    l.foldl ExSrc.put (withExes ms es : List (Material F)) = withExes ms (es ++ l.map fun e => (ms.length, e)) := by
  induction l generalizing es with
  | nil => simp
  | cons e l ih => rw [List.foldl_cons, put_withExes, ih]; simp

theorem materialsOf_snoc (l : List Chunk) (c : Chunk) : materialsOf (l ++ [c]) = materialsOf l ++ materialsOf [c] := by
  simp [materialsOf]

theorem exesFrom_snoc (n : Nat) (l : List Chunk) (c : Chunk) :
    exesFrom n (l ++ [c]) = exesFrom n l ++ exesFrom (n + (materialsOf l).length) [c] := by
  induction l generalizing n with
  | nil => simp [exesFrom, materialsOf]
  | cons a l ih =>
    cases a <;> simp only [List.cons_append, exesFrom, ih, materialsOf, List.flatMap_cons, List.length_append,
      List.length_nil, Nat.zero_add, Nat.add_assoc, List.append_assoc]

theorem exesFrom_le (n : Nat) (l : List Chunk) : ∀ p ∈ exesFrom n l, p.1 ≤ n + (materialsOf l).length := by
  induction l generalizing n with
  | nil => simp [exesFrom]
  | cons a l ih =>
    cases a with
    | materials m =>
      intro p hp
      have := ih _ p hp
      simp only [materialsOf, List.flatMap_cons, List.length_append] at this ⊢
      omega
    | ex es =>
      intro p hp
      rcases List.mem_append.1 hp with hp | hp
      · obtain ⟨e, _, rfl⟩ := List.mem_map.1 hp
        simp
      · have := ih _ p hp
        simpa only [materialsOf, List.flatMap_cons, List.nil_append] using this
    | _ =>
      intro p hp
      have := ih _ p hp
      simpa only [materialsOf, List.flatMap_cons, List.nil_append] using this

theorem lastFor_none (es : List (Nat × ExSrc)) (k : Nat) (h : ∀ p ∈ es, p.1 ≤ k) : lastFor es k = none := by
  unfold lastFor
  have : (es.filter fun p => p.2.index == k && decide (k < p.1)) = [] := by
    rw [List.filter_eq_nil_iff]
    intro p hp
    have := h p hp
    simp only [Bool.and_eq_true, decide_eq_true_eq, not_and]
    omega
  rw [this]
  rfl

theorem withExes_append (ms ms' : List MatSrc) (es : List (Nat × ExSrc)) (h : ∀ p ∈ es, p.1 ≤ ms.length) :
    (withExes (ms ++ ms') es : List (Material F)) = withExes ms es ++ ms'.map MatSrc.meaning := by
  refine List.ext_getElem? fun k => ?_
  have hlen : (withExes ms es : List (Material F)).length = ms.length := by simp [withExes]
  rw [withExes_get, List.getElem?_append, List.getElem?_append, hlen]
  split
  · rw [withExes_get]
  · rename_i hk
    rw [lastFor_none es k fun p hp => (h p hp).trans (by omega), List.getElem?_map]
    cases ms'[k - ms.length]? with
    | none => rfl
    | some m =>
      have := matSrc_ex2 (F := F) m
      simp only [Option.map_some, Option.map_none]
      rw [← this]

theorem meaning_parts (l : List Chunk) : (meaning l : Document F) =
    ⟨(sceneOf l).map (List.foldl SceneEntry.set blankScene), fullMaterials l,
      (objectsOf l).map ObjSrc.meaning, none, none, none⟩ := by
  unfold meaning
  induction l using List.reverseRecOn with
  | nil => rfl
  | append_singleton l c ih =>
    have hfull : ∀ l, fullMaterials l = (withExes (materialsOf l) (exesFrom 0 l) : List (Material F)) := fun _ => rfl
    rw [List.foldl_append, ih, hfull, hfull, materialsOf_snoc, exesFrom_snoc]
    cases c with
    | materials m =>
      have e1 : materialsOf [.materials m] = m := by simp [materialsOf]
      have e2 : ∀ n, exesFrom n [.materials m] = [] := fun _ => rfl
      rw [e1, e2, List.append_nil, withExes_append _ _ _ (by simpa using exesFrom_le 0 l)]
      simp [Chunk.add, sceneOf, objectsOf]
    | ex es =>
      have e1 : materialsOf [.ex es] = [] := by simp [materialsOf]
      have e2 : ∀ n, exesFrom n [.ex es] = es.map fun e => (n, e) := by intro n; simp [exesFrom]
      rw [e1, e2, List.append_nil]
      have := puts_withExes (F := F) (materialsOf l) es (exesFrom 0 l)
      simp [Chunk.add, sceneOf, objectsOf, this]
    | _ => simp [Chunk.add, sceneOf, objectsOf, materialsOf, exesFrom]

variable [Uni]

omit [Zero F] [One F] [Neg F] [Mul F] [NumText F] in
theorem scan_at_end {s : St} (h : AtWs [] s) : scan s = ⟨[], 0, false, .eof, []⟩ := by
  rw [h.scan_eq]
  rfl

/-- How a text may end. -/
def End (st : Style) (t : Str) : Prop := t = [] ∨ ∃ r, t = "Eof".toList ++ (st.nl ++ r)

theorem end_doc {st : Style} (hst : st.Ok) {t : Str} (ht : End st t) (d : Document F) (s : St) (hs : AtWs t s) :
    DocWp d (scan s) fun d' s' => d' = d ∧ s'.errs = 0 := by
  rcases ht with rfl | ⟨r, rfl⟩
  · have hsc := scan_at_end hs
    refine ⟨1, d, scan s, ?_, rfl, by rw [hsc]⟩
    rw [docLoop, if_pos (by rw [hsc])]
  · have hsc := scan_at_word hs (by decide) (hst.nl_stop r)
    refine ⟨1, d, scan s, ?_, rfl, by rw [hsc]⟩
    rw [docLoop, if_neg (by rw [hsc]; simp), if_pos (by rw [hsc]; exact ⟨rfl, rfl⟩)]

theorem parse_of_wp {t : Str} {d : Document F}
    (h : DocWp ⟨none, [], [], none, none, none⟩ (scan ⟨t, 0, false, .eof, []⟩) fun d' s' => d' = d ∧ s'.errs = 0) :
    parse t = some (d, 0) := by
  obtain ⟨n, d', s', hrun, rfl, he⟩ := h
  obtain ⟨r, hr⟩ := docLoop_total (F := F) (t.length + 2) ⟨none, [], [], none, none, none⟩
    (scan ⟨t, 0, false, .eof, []⟩) (by have := scan_le ⟨t, 0, false, .eof, []⟩; simp only at this; omega)
  have e1 := docLoop_mono _ (max n (t.length + 2)) _ _ _ hrun (le_max_left _ _)
  have e2 := docLoop_mono _ (max n (t.length + 2)) _ _ _ hr (le_max_right _ _)
  rw [e1] at e2
  simp only [parse]
  rw [hr, ← e2]
  simp only [he]

/-! ## Properties -/

/-- C182. A text of blocks, entries and attributes is read as the document that it describes, without an error:
its objects and materials are those of the text in the order of the text, its scene is the last one, and a material has
the second part that is the last one with its number behind it. Thumbnails have no effect. -/
theorem source_parse (st : Style) (hst : st.Ok) (l : List Chunk) (hl : ∀ c ∈ l, c.Ok F) (t : Str) (ht : End st t) :
    parse (l.flatMap (Chunk.text st) ++ t) = some ((⟨(sceneOf l).map (List.foldl SceneEntry.set blankScene),
      fullMaterials l, (objectsOf l).map ObjSrc.meaning, none, none, none⟩ : Document F), 0) := by
  rw [← meaning_parts]
  refine parse_of_wp ?_
  exact chunks_piece hst l hl ⟨none, [], [], none, none, none⟩ t _
    (fun s hs => end_doc hst ht (meaning l) s hs) _ (At.ws ⟨rfl, rfl, rfl⟩)

theorem source_meaning (st : Style) (hst : st.Ok) (l : List Chunk) (hl : ∀ c ∈ l, c.Ok F) (t : Str) (ht : End st t) :
    parse (l.flatMap (Chunk.text st) ++ t) = some ((meaning l : Document F), 0) := by
  rw [source_parse st hst l hl t ht, meaning_parts]

/-- C182. Two texts that differ only in parts with unknown names, in line ends, indentation and in what is behind
the end are read as the same document. -/
theorem source_unknown (st st' : Style) (hst : st.Ok) (hst' : st'.Ok) (l l' : List Chunk) (hl : ∀ c ∈ l, c.Ok F)
    (hl' : ∀ c ∈ l', c.Ok F) (t t' : Str) (ht : End st t) (ht' : End st' t')
    (h : l.flatMap Chunk.strip = l'.flatMap Chunk.strip) :
    (parse (l.flatMap (Chunk.text st) ++ t) : Option (Document F × Nat)) = parse (l'.flatMap (Chunk.text st') ++ t') := by
  rw [source_meaning st hst l hl t ht, source_meaning st' hst' l' hl' t' ht', ← meaning_strip l, h, meaning_strip]

/-- C183. The attributes of materials and faces and the entries of objects and scenes can be in any order. -/
theorem source_order (st st' : Style) (hst : st.Ok) (hst' : st'.Ok) (l l' : List Chunk) (hl : ∀ c ∈ l, c.Ok F)
    (hl' : ∀ c ∈ l', c.Ok F) (t t' : Str) (ht : End st t) (ht' : End st' t') (h : List.Forall₂ Chunk.Same l l') :
    (parse (l.flatMap (Chunk.text st) ++ t) : Option (Document F × Nat)) = parse (l'.flatMap (Chunk.text st') ++ t') := by
  rw [source_meaning st hst l hl t ht, source_meaning st' hst' l' hl' t' ht', meaning_same h]

/-- C184. Words of the format count inside of unknown blocks of the file, too: behind an unknown block with the word
`Eof` in it nothing is read. -/
theorem unknown_block_false (st : Style) (hst : st.Ok) (key : Str) (hk : isWord key = true) (hn : key ∉ chunkKeys)
    (rest : Str) : parse (key ++ (" {".toList ++ (st.nl ++ ("Eof".toList ++ (st.nl ++ ('}' :: (st.nl ++ rest)))))))
      = some ((⟨none, [], [], none, none, none⟩ : Document F), 0) := by
  have h := fun (t : Str) (ht : End st t) => source_parse (F := F) st hst
      [.other [(.item (.word key), [' ']), (.opening, st.nl)]] (by
    intro c hc
    rw [List.mem_singleton.1 hc]
    refine ⟨?_, ?_⟩
    · intro p hp
      have hnl : st.nl ≠ [] ∧ ∀ c ∈ st.nl, c = ' ' ∨ c = '\t' ∨ c = '\n' ∨ c = '\r' := by
        rcases hst.nl with e | e <;> rw [e] <;> simp
      rcases List.mem_cons.1 hp with rfl | hp
      · exact ⟨hk, by simp, by simp⟩
      · rw [List.mem_singleton.1 hp]
        exact ⟨trivial, hnl.1, hnl.2⟩
    · intro p hp i hi
      rcases List.mem_cons.1 hp with rfl | hp
      · injection hi with hi
        rw [← hi]
        exact hn
      · rw [List.mem_singleton.1 hp] at hi
        exact absurd hi (by simp)) t ht
  have e : " {".toList = [' ', '{'] := by decide
  have h' : ∀ t, End st t → parse (key ++ ([' ', '{'] ++ (st.nl ++ t)))
      = some ((⟨none, [], [], none, none, none⟩ : Document F), 0) := by
    intro t ht
    have e2 : [Chunk.other [(.item (.word key), [' ']), (.opening, st.nl)]].flatMap (Chunk.text st) ++ t
        = key ++ ([' ', '{'] ++ (st.nl ++ t)) := by
      show (innerText [(.item (.word key), [' ']), (.opening, st.nl)] ++ []) ++ t = _
      simp [innerText, Inner.text, Item.text]
    have := h t ht
    rw [e2] at this
    exact this
  rewrite [e]
  exact h' _ (Or.inr ⟨_, rfl⟩)

end

/-! ## Examples -/

section Examples

local instance sourceUni : Uni where
  letter := Char.isAlpha
  digit := Char.isDigit
  letter_ascii := fun _ _ => rfl
  digit_ascii := fun _ _ => rfl

local instance sourceNum : NumText Int where
  v := showInt
  f2 := showInt
  f3 := showInt
  f4 := showInt
  f6 := showInt
  parse := fun t => (atoi t : Int)
  facet := 59

def srcNum (n : Nat) : Num := ⟨false, natLit n⟩

theorem srcNum_ok (n : Nat) : (srcNum n).Ok := natLit_ok n

def srcVec (a b c : Nat) : Num3 := ⟨srcNum a, srcNum b, ⟨true, natLit c⟩⟩

theorem srcVec_ok (a b c : Nat) : (srcVec a b c).Ok := ⟨natLit_ok a, natLit_ok b, natLit_ok c⟩

/-- A text with unknown parts at every level. -/
def srcSample : List Chunk :=
  [.other [(.item (.word "Metasequoia".toList), [' ']), (.item (.word "Document".toList), ['\r', '\n'])],
   .scene [.pos (srcVec 1 2 3), .other (.block "dirlights".toList [.num (srcNum 1)] [(.opening, ['\n']),
     (.item (.word "dir".toList), [' ']), (.item (.num (srcNum 4)), ['\n']), (.closing, ['\n'])])],
   .materials [⟨"m".toList, [.other "vcol".toList [.num (srcNum 1)], .dif (srcNum 7), .tex "a.png".toList]⟩],
   .object ⟨"o".toList, [.other (.line "mirror_axis".toList [.num (srcNum 1)]),
     .vertex [srcVec 0 0 0, srcVec 1 0 0, srcVec 0 1 0],
     .face [⟨3, [.verts [0, 1, 2], .other "COL".toList [.num (srcNum 5), .num (srcNum 6)], .mat 0]⟩]]⟩,
   .other [(.item (.word "Blob".toList), [' ']), (.opening, ['\n']), (.closing, ['\n'])]]

def srcStyle : Style := ⟨['\r', '\n'], ['\t']⟩

theorem srcStyle_ok : srcStyle.Ok := ⟨Or.inr rfl, by simp [srcStyle]⟩

theorem srcSample_ok : ∀ c ∈ srcSample, c.Ok Int := by
  intro c hc
  simp only [srcSample, List.mem_cons, List.not_mem_nil, or_false] at hc
  rcases hc with rfl | rfl | rfl | rfl | rfl
  · refine ⟨?_, ?_⟩
    · intro p hp
      simp only [List.mem_cons, List.not_mem_nil, or_false] at hp
      rcases hp with rfl | rfl
      · exact ⟨(by decide : isWord "Metasequoia".toList = true), by simp, by simp⟩
      · exact ⟨(by decide : isWord "Document".toList = true), by simp, by simp⟩
    · intro p hp i hi
      simp only [List.mem_cons, List.not_mem_nil, or_false] at hp
      rcases hp with rfl | rfl <;> injection hi with hi <;> subst hi
      · exact (by decide : "Metasequoia".toList ∉ chunkKeys)
      · exact (by decide : "Document".toList ∉ chunkKeys)
  · intro e he
    rcases List.mem_cons.1 he with rfl | he
    · exact srcVec_ok 1 2 3
    · rw [List.mem_singleton.1 he]
      refine ⟨by decide, by decide, ?_, ?_, ?_⟩
      · intro i hi
        rw [List.mem_singleton.1 hi]
        exact ⟨srcNum_ok 1, trivial⟩
      · intro p hp
        simp only [List.mem_cons, List.not_mem_nil, or_false] at hp
        rcases hp with rfl | rfl | rfl | rfl
        · exact ⟨trivial, by simp, by simp⟩
        · exact ⟨(by decide : isWord "dir".toList = true), by simp, by simp⟩
        · exact ⟨srcNum_ok 4, by simp, by simp⟩
        · exact ⟨trivial, by simp, by simp⟩
      · exact rfl
  · refine ⟨by decide, ?_⟩
    intro m hm
    rw [List.mem_singleton.1 hm]
    refine ⟨by decide, by simp, ?_⟩
    intro a ha
    simp only [List.mem_cons, List.not_mem_nil, or_false] at ha
    rcases ha with rfl | rfl | rfl
    · refine ⟨by decide, by decide, ?_⟩
      intro i hi
      rw [List.mem_singleton.1 hi]
      exact srcNum_ok 1
    · exact srcNum_ok 7
    · exact (by decide : Plain "a.png".toList)
  · refine ⟨by decide, ⟨⟨by decide, by decide, ?_⟩, ⟨by decide, ?_⟩, ⟨by decide, ?_⟩, trivial⟩⟩
    · intro i hi
      rw [List.mem_singleton.1 hi]
      exact ⟨srcNum_ok 1, trivial⟩
    · intro v hv
      simp only [List.mem_cons, List.not_mem_nil, or_false] at hv
      rcases hv with rfl | rfl | rfl <;> exact srcVec_ok _ _ _
    · intro f hf
      rw [List.mem_singleton.1 hf]
      refine ⟨by decide, by simp, ?_⟩
      intro a ha
      simp only [List.mem_cons, List.not_mem_nil, or_false] at ha
      rcases ha with rfl | rfl | rfl
      · exact ⟨rfl, by decide⟩
      · refine ⟨by decide, by decide, ?_⟩
        intro i hi
        simp only [List.mem_cons, List.not_mem_nil, or_false] at hi
        rcases hi with rfl | rfl <;> exact srcNum_ok _
      · exact (by decide : 0 ≤ maxInt)
  · refine ⟨?_, ?_⟩
    · intro p hp
      simp only [List.mem_cons, List.not_mem_nil, or_false] at hp
      rcases hp with rfl | rfl | rfl
      · exact ⟨(by decide : isWord "Blob".toList = true), by simp, by simp⟩
      · exact ⟨trivial, by simp, by simp⟩
      · exact ⟨trivial, by simp, by simp⟩
    · intro p hp i hi
      simp only [List.mem_cons, List.not_mem_nil, or_false] at hp
      rcases hp with rfl | rfl | rfl
      · injection hi with hi
        subst hi
        exact (by decide : "Blob".toList ∉ chunkKeys)
      · exact absurd hi (by simp)
      · exact absurd hi (by simp)

/-- The theorem at the sample, with what the numbers are. -/
example : ∃ d : Document Int, parse (srcSample.flatMap (Chunk.text srcStyle) ++ "Eof\r\nbehind { 0x".toList) = some (d, 0) ∧
    d.materials.map (fun m => (m.name, m.diffuse, m.texture)) = [("m".toList, 7, "a.png".toList)] ∧
    d.objects.map (fun o => (o.name, o.vertexes, o.faces.map fun f => (f.verts, f.material)))
      = [("o".toList, [⟨0, 0, 0⟩, ⟨1, 0, 0⟩, ⟨0, 1, 0⟩], [([0, 1, 2], 0)])] ∧
    d.scene.map (·.cameraPos) = some ⟨1, 2, -3⟩ := by
  refine ⟨_, source_parse srcStyle srcStyle_ok srcSample srcSample_ok _ (Or.inr ⟨"behind { 0x".toList, by decide⟩), ?_⟩
  decide +kernel

/-- The beginning of the text. -/
example : ((srcSample.take 3).flatMap (Chunk.text srcStyle))
    = "Metasequoia Document\r\nScene {\r\n\tpos 1 2 -3\r\n\tdirlights 1 {\r\n{\ndir 4\n}\n}\r\n}\r\nMaterial 1 {\r\n\t\"m\" vcol(1) dif(7) tex(\"a.png\")\r\n}\r\n".toList := by
  decide +kernel

/-- A text with a thumbnail, second materials and the name of a file of plugins. -/
def srcReal : List Chunk :=
  [.xml "a.mqx".toList,
   .thumb ⟨128, 128, 24, "rgb".toList, "raw".toList, "0e9ffF 0b\r\n e8 \t123\r\n".toList⟩,
   .materials [⟨"m".toList, [.dif (srcNum 7)]⟩, ⟨"n".toList, [.dif (srcNum 8)]⟩],
   .ex [⟨1, [.name "glTF".toList, .other (.line "shaderlevel".toList [.num (srcNum 1)]),
     .params [⟨.one (.word "Metallic".toList), .float (srcNum 4)⟩, ⟨.dotted "Base".toList "Size".toList, .int 3⟩,
       ⟨.one (.quoted "Cast".toList), .bool true true⟩, ⟨.one (.word "Mode".toList), .other "text".toList "OPAQUE".toList⟩],
     .mapping [(.word "Normal".toList, "n.png".toList)]]⟩, ⟨5, []⟩]]

theorem srcReal_ok : ∀ c ∈ srcReal, c.Ok Int := by
  intro c hc
  simp only [srcReal, List.mem_cons, List.not_mem_nil, or_false] at hc
  rcases hc with rfl | rfl | rfl | rfl
  · exact (by decide : Plain "a.mqx".toList)
  · refine ⟨by decide, by decide, ?_⟩
    show ∀ c ∈ "0e9ffF 0b\r\n e8 \t123\r\n".toList, _
    decide +kernel
  · refine ⟨by decide, ?_⟩
    intro m hm
    simp only [List.mem_cons, List.not_mem_nil, or_false] at hm
    rcases hm with rfl | rfl <;> refine ⟨by decide, by simp, ?_⟩ <;> intro a ha <;> rw [List.mem_singleton.1 ha] <;>
      exact srcNum_ok _
  · refine ⟨by decide, ?_⟩
    intro e he
    simp only [List.mem_cons, List.not_mem_nil, or_false] at he
    rcases he with rfl | rfl
    · refine ⟨by decide, ?_⟩
      intro a ha
      simp only [List.mem_cons, List.not_mem_nil, or_false] at ha
      rcases ha with rfl | rfl | rfl | rfl
      · exact (by decide : Plain "glTF".toList)
      · refine ⟨by decide, by decide, ?_⟩
        intro i hi
        rw [List.mem_singleton.1 hi]
        exact ⟨srcNum_ok 1, trivial⟩
      · refine ⟨by decide, ?_⟩
        intro p hp
        simp only [List.mem_cons, List.not_mem_nil, or_false] at hp
        rcases hp with rfl | rfl | rfl | rfl
        · exact ⟨(by decide : isWord "Metallic".toList = true), srcNum_ok 4⟩
        · exact ⟨⟨by decide, by decide⟩, (by decide : 3 ≤ maxInt)⟩
        · exact ⟨(by decide : Plain "Cast".toList), trivial⟩
        · exact ⟨(by decide : isWord "Mode".toList = true), by decide, by decide, by decide⟩
      · refine ⟨by decide, ?_⟩
        intro p hp
        rw [List.mem_singleton.1 hp]
        exact ⟨(by decide : isWord "Normal".toList = true), by decide⟩
    · exact ⟨by decide, by simp⟩

/-- The theorem at this sample. -/
example : ∃ d : Document Int, parse (srcReal.flatMap (Chunk.text srcStyle) ++ "Eof\r\n".toList) = some (d, 0) ∧
    d.materials.map (fun m => (m.name, m.diffuse)) = [("m".toList, 7), ("n".toList, 8)] ∧
    d.materials.map (fun m => m.ex2.isSome) = [false, true] ∧
    d.materials.filterMap (fun m => m.ex2.map (·.shaderName)) = ["glTF".toList] ∧
    d.materials.filterMap (fun m => m.ex2.map (·.shaderMapping)) = [[("Normal".toList, "n.png".toList)]] ∧
    d.materials.filterMap (fun m => m.ex2.map fun e => e.shaderParams.map Prod.fst)
      = [["Metallic".toList, "Base.Size".toList, "Cast".toList, "Mode".toList]] := by
  refine ⟨_, source_parse srcStyle srcStyle_ok srcReal srcReal_ok _ (Or.inr ⟨[], by decide⟩), ?_⟩
  decide +kernel

/-- The text of the thumbnail. -/
example : Chunk.text srcStyle (.thumb ⟨128, 128, 24, "rgb".toList, "raw".toList, "0e9f\r\n".toList⟩)
    = "Thumbnail 128 128 24 rgb raw {\r\n0e9f\r\n}\r\n".toList := by decide +kernel

/-- Without the unknown parts. -/
def srcBare : List Chunk :=
  [.scene [.pos (srcVec 1 2 3)], .materials [⟨"m".toList, [.dif (srcNum 7), .tex "a.png".toList]⟩],
   .object ⟨"o".toList, [.vertex [srcVec 0 0 0, srcVec 1 0 0, srcVec 0 1 0], .face [⟨3, [.verts [0, 1, 2], .mat 0]⟩]]⟩]

example : srcSample.flatMap Chunk.strip = srcBare.flatMap Chunk.strip := rfl

/-- With the attributes and entries in another order. -/
example : Chunk.Same (.materials [⟨"m".toList, [.dif (srcNum 7), .tex "a.png".toList, .spc (srcNum 2)]⟩])
    (.materials [⟨"m".toList, [.tex "a.png".toList, .dif (srcNum 7), .spc (srcNum 2)]⟩]) := by
  refine .materials (.cons ⟨rfl, List.Perm.swap _ _ _, ?_⟩ .nil)
  unfold Once
  decide

example : Chunk.Same
    (.object ⟨"o".toList, [.visible 15, .vertex [srcVec 0 0 0], .face [⟨1, [.verts [0], .mat 3]⟩]]⟩)
    (.object ⟨"o".toList, [.vertex [srcVec 0 0 0], .visible 15, .face [⟨1, [.mat 3, .verts [0]]⟩]]⟩) := by
  refine .object ⟨rfl, ?_, [.vertex [srcVec 0 0 0], .visible 15, .face [⟨1, [.verts [0], .mat 3]⟩]],
    List.Perm.swap _ _ _, .cons (Or.inl rfl) (.cons (Or.inl rfl) (.cons (Or.inr ⟨_, _, rfl, rfl,
      .cons ⟨rfl, List.Perm.swap _ _ _, ?_⟩ .nil⟩) .nil))⟩
  · unfold Once; decide
  · unfold Once; decide

/-- What is behind an unknown block with the word in it is lost (`unknown_block_false`). -/
example : (parse "Blob {\nEof\n}\nObject \"a\" {\n}\n".toList : Option (Document Int × Nat)).map (fun r => r.1.objects.length)
    = some 0 := by decide +kernel

end Examples

end Verif.Mqo
