import Verif.Conv.FbxLinkProps
import Verif.Fbx.EditFindings

/-!
What is read from the nodes of an FBX document after it was saved as text and loaded (lemmas for C181).
-/

namespace Verif.Conv

open Verif.Geom
open Verif.Mqo (Str Object Face MorphTargetList)
open Verif.Mmd (Bytes toSigned)
open Verif.Fbx hiding Conv
open Verif.Fbx.FDoc

variable {F : Type}

/-! ## Values -/

/-- The text of a float gives back the float: it has a point and is parsed to the float, or it is that of an
integer of 32 bits. -/
def FloatText (tenv : TextEnv) (cv : Fbx.Conv) (text : Bytes) (f : Nat) : Prop :=
  (46 ∈ text ∧ cv.ofF64 (tenv.parseF64 text).1 = f) ∨
    ∃ v : Int, -2147483648 ≤ v ∧ v < 2147483648 ∧ text = decInt v

/-- A value of a property that is read as the same number after saving: an integer, a float whose text gives it
back, or a string. -/
inductive PlainValue (tenv : TextEnv) (cv : Fbx.Conv) : Value → Prop
  | int (ty : NumTy) (b : Nat) : IntTy ty → b < 256 ^ ty.width → PlainValue tenv cv (.num ty b)
  | f32 (b : Nat) : b < 4294967296 → FloatText tenv cv (tenv.showF32 b) b → PlainValue tenv cv (.num .f32 b)
  | f64 (b : Nat) : b < 18446744073709551616 → FloatText tenv cv (tenv.showF64 b) (cv.ofF64 b) →
      PlainValue tenv cv (.num .f64 b)
  | str (b : Bytes) : PlainValue tenv cv (.str b)

/-- The same number is read from both values. -/
def SameNumber (env : FbxEnv F) (v w : Value) : Prop := ∀ d, env.number (some w) d = env.number (some v) d

theorem int_number (env : FbxEnv F) (tenv : TextEnv) (ty : NumTy) (b : Nat) (ht : IntTy ty) (hb : b < 256 ^ ty.width) :
    ∃ w, loaded tenv (.num ty b) = [.num .i64 w] ∧ SameNumber env (.num ty b) (.num .i64 w) ∧
      ∀ d, toInt64 (some (.num .i64 w)) d = toInt64 (some (.num ty b)) d := by
  have key : ∀ n, (n = 1 ∨ n = 2 ∨ n = 4 ∨ n = 8) → b < 256 ^ n →
      toSigned 8 (int64Bits (toSigned n b)) = toSigned n b := by
    intro n hn hb
    obtain ⟨h1, h2⟩ := toSigned_range8 n b hn hb
    exact toSigned_int64Bits _ h1 h2
  rcases ht with rfl | rfl | rfl | rfl
  · have := key 1 (by simp) hb
    exact ⟨_, rfl, fun d => by simp only [FbxEnv.number, toFloat32]; exact congrArg (fun x => env.value (UInt32.ofNat (env.cv.ofInt x))) this,
      fun d => this⟩
  · have := key 2 (by simp) hb
    exact ⟨_, rfl, fun d => by simp only [FbxEnv.number, toFloat32]; exact congrArg (fun x => env.value (UInt32.ofNat (env.cv.ofInt x))) this,
      fun d => this⟩
  · have := key 4 (by simp) hb
    exact ⟨_, rfl, fun d => by simp only [FbxEnv.number, toFloat32]; exact congrArg (fun x => env.value (UInt32.ofNat (env.cv.ofInt x))) this,
      fun d => this⟩
  · have := key 8 (by simp) hb
    exact ⟨_, rfl, fun d => by simp only [FbxEnv.number, toFloat32]; exact congrArg (fun x => env.value (UInt32.ofNat (env.cv.ofInt x))) this,
      fun d => this⟩

theorem float_number (env : FbxEnv F) (tenv : TextEnv) (text : Bytes) (f : Nat) (h : FloatText tenv env.cv text f)
    (hi : ∀ v : Int, text = decInt v → env.cv.ofInt v = f) (d : F) :
    env.number (some (numberValue tenv text).1) d = env.value (UInt32.ofNat f) := by
  rcases h with ⟨h1, h2⟩ | ⟨v, h1, h2, h3⟩
  · have : text.contains 46 = true := by simpa using h1
    simp only [numberValue, this, if_true, FbxEnv.number, toFloat32, h2]
  · have hd : text.contains 46 = false := by
      rw [h3]; simpa using decInt_dot v
    have hp : parseInt 64 text = some v := by
      rw [h3]; exact parseInt_decInt 64 v (by norm_num; omega) (by norm_num; omega)
    simp only [numberValue, hd, hp, Bool.false_eq_true, if_false, FbxEnv.number, toFloat32]
    rw [toSigned_int64Bits v (by omega) (by omega), hi v h3]

theorem plain_number (env : FbxEnv F) (tenv : TextEnv) (laws : TextLaws tenv env.cv) (v : Value)
    (h : PlainValue tenv env.cv v) : ∃ w, loaded tenv v = [w] ∧ SameNumber env v w := by
  cases h with
  | int ty b ht hb =>
    obtain ⟨w, h1, h2, -⟩ := int_number env tenv ty b ht hb
    exact ⟨_, h1, h2⟩
  | f32 b hb h =>
    refine ⟨_, rfl, fun d => ?_⟩
    rw [float_number env tenv _ b h (fun v hv => laws.show32 b v hb hv)]
    rfl
  | f64 b hb h =>
    refine ⟨_, rfl, fun d => ?_⟩
    rw [float_number env tenv _ _ h (fun v hv => laws.show64 b v hb hv)]
    rfl
  | str b => exact ⟨_, rfl, fun d => rfl⟩

theorem plain_numbers (env : FbxEnv F) (tenv : TextEnv) (laws : TextLaws tenv env.cv) : ∀ vs : List Value,
    (∀ v ∈ vs, PlainValue tenv env.cv v) → List.Forall₂ (SameNumber env) vs (vs.flatMap (loaded tenv)) := by
  intro vs
  induction vs with
  | nil => intro _; exact .nil
  | cons v vs ih =>
    intro h
    obtain ⟨w, h1, h2⟩ := plain_number env tenv laws v (h v (by simp))
    rw [List.flatMap_cons, h1]
    exact .cons h2 (ih fun x hx => h x (by simp [hx]))

theorem same_get (env : FbxEnv F) : ∀ (vs ws : List Value), List.Forall₂ (SameNumber env) vs ws → ∀ (i : Nat) (d : F),
    env.number ws[i]? d = env.number vs[i]? d := by
  intro vs ws h
  induction h with
  | nil => intro i d; rfl
  | cons h _ ih =>
    intro i d
    cases i with
    | zero => exact h d
    | succ i => exact ih i d

/-! ## Properties -/

/-- A property as programs write it: name, type, label and flags, and plain values. -/
def PlainProp (tenv : TextEnv) (cv : Fbx.Conv) (p : Node) : Prop :=
  ∃ name t l f vals, p.attrs = .str name :: .str t :: .str l :: .str f :: vals ∧ splitName name = none ∧
    ∀ v ∈ vals, PlainValue tenv cv v

/-- All properties of a node are plain. -/
def PlainProps (tenv : TextEnv) (cv : Fbx.Conv) (n : Node) : Prop :=
  ∀ p ∈ getChildren (findChild (some n) b! "Properties70"), PlainProp tenv cv p

/-- Entries of the same name from which the same values come. -/
def SameProp (r : Bytes → List Value → List Value → Prop) (a b : Bytes × Property) : Prop :=
  b.1 = a.1 ∧ r a.1 a.2.attrs b.2.attrs

theorem same_lookup (r : Bytes → List Value → List Value → Prop) (name : Bytes) (hr : r name [] []) :
    ∀ l l' : List (Bytes × Property), List.Forall₂ (SameProp r) l l' →
    ((l.lookup name).isSome = (l'.lookup name).isSome) ∧
      r name (((l.lookup name).getD .empty).attrs) (((l'.lookup name).getD .empty).attrs) := by
  intro l l' h
  induction h with
  | nil => exact ⟨rfl, hr⟩
  | @cons a b l l' hab _ ih =>
    obtain ⟨a1, a2⟩ := a
    obtain ⟨b1, b2⟩ := b
    obtain ⟨h1, h2⟩ := hab
    simp only at h1
    subst h1
    simp only [List.lookup_cons]
    cases hb : name == b1 with
    | true =>
      have : name = b1 := by simpa using hb
      subst this
      exact ⟨rfl, h2⟩
    | false => exact ih

/-- The list of properties of an object before and after. -/
theorem props_loaded (tenv : TextEnv) (r : Bytes → List Value → List Value → Prop) : ∀ ns : List Node,
    (∀ p ∈ ns, ∃ name t l f vals, p.attrs = .str name :: .str t :: .str l :: .str f :: vals ∧ splitName name = none ∧
      r name vals (vals.flatMap (loaded tenv))) →
    ∃ l l', ns.mapM propOfNode = some l ∧ (ns.map (loadedNode tenv)).mapM propOfNode = some l' ∧
      List.Forall₂ (SameProp r) l l' := by
  intro ns
  induction ns with
  | nil => intro _; exact ⟨[], [], rfl, rfl, .nil⟩
  | cons p ns ih =>
    intro h
    obtain ⟨l, l', h1, h2, h3⟩ := ih fun x hx => h x (by simp [hx])
    obtain ⟨name, t, lb, f, vals, e, hn, hr⟩ := h p (by simp)
    have e' : (loadedNode tenv p).attrs = .str name :: .str (textName t) :: .str (textName lb) :: .str (textName f) ::
        vals.flatMap (loaded tenv) := by
      rw [loadedNode_attrs, e]
      simp only [List.flatMap_cons, string_saved tenv name hn, List.cons_append, List.nil_append]
      rfl
    have p1 : propOfNode p = some (name, ⟨vals, t, lb, f⟩) := by
      simp [propOfNode, e, attr, toStr]
    have p2 : propOfNode (loadedNode tenv p) =
        some (name, ⟨vals.flatMap (loaded tenv), textName t, textName lb, textName f⟩) := by
      simp [propOfNode, e', attr, toStr]
    refine ⟨(name, ⟨vals, t, lb, f⟩) :: l, (name, ⟨vals.flatMap (loaded tenv), textName t, textName lb, textName f⟩) :: l',
      ?_, ?_, .cons ⟨rfl, hr⟩ h3⟩
    · rw [List.mapM_cons, p1, h1]; rfl
    · rw [List.map_cons, List.mapM_cons, p2, h2]; rfl

theorem fillCache_nodes (ns : Option (List Node)) (l : List (Bytes × Property)) (h : (ns.getD []).mapM propOfNode = some l) :
    fillCache ⟨ns, none⟩ = some ⟨ns, some l.reverse⟩ := by
  simp only [fillCache, h, Option.map_some]

theorem getProperty_loaded (tenv : TextEnv) (r : Bytes → List Value → List Value → Prop) (name : Bytes) (hr : r name [] [])
    (ns ts : Option (List Node)) (hasT : Bool)
    (h : ∀ p ∈ ns.getD [] ++ ts.getD [], ∃ name t l f vals, p.attrs = .str name :: .str t :: .str l :: .str f :: vals ∧
      splitName name = none ∧ r name vals (vals.flatMap (loaded tenv))) :
    ∃ p p', (getProperty ⟨ns, none⟩ (if hasT then some ⟨ts, none⟩ else none) name).map (fun x => x.1) = some p ∧
      (getProperty ⟨ns.map (List.map (loadedNode tenv)), none⟩
        (if hasT then some ⟨ts.map (List.map (loadedNode tenv)), none⟩ else none) name).map (fun x => x.1) = some p' ∧
      r name p.attrs p'.attrs := by
  obtain ⟨l, l', h1, h2, h3⟩ := props_loaded tenv r (ns.getD []) fun p hp => h p (by simp [hp])
  obtain ⟨k, k', g1, g2, g3⟩ := props_loaded tenv r (ts.getD []) fun p hp => h p (by simp [hp])
  have conv : ∀ o : Option (List Node), (o.map (List.map (loadedNode tenv))).getD [] = (o.getD []).map (loadedNode tenv) := by
    intro o; cases o <;> rfl
  have f1 := fillCache_nodes ns l h1
  have f2 := fillCache_nodes (ns.map (List.map (loadedNode tenv))) l' (by rw [conv]; exact h2)
  have f3 := fillCache_nodes ts k g1
  have f4 := fillCache_nodes (ts.map (List.map (loadedNode tenv))) k' (by rw [conv]; exact g2)
  obtain ⟨s1, s2⟩ := same_lookup r name hr _ _ (List.rel_reverse h3)
  obtain ⟨u1, u2⟩ := same_lookup r name hr _ _ (List.rel_reverse g3)
  unfold getProperty
  simp only [f1, f2, Option.getD_some]
  cases hl : l.reverse.lookup name with
  | some p =>
    cases hl' : l'.reverse.lookup name with
    | none => rw [hl, hl'] at s1; simp at s1
    | some p' =>
      rw [hl, hl'] at s2
      exact ⟨p, p', rfl, rfl, s2⟩
  | none =>
    cases hl' : l'.reverse.lookup name with
    | some p' => rw [hl, hl'] at s1; simp at s1
    | none =>
      cases hasT with
      | false => exact ⟨_, _, rfl, rfl, hr⟩
      | true =>
        simp only [if_true, f3, f4, Option.getD_some]
        exact ⟨_, _, rfl, rfl, u2⟩

/-! ## The tree of a saved file -/

/-- The sections of `root'` are those of `root` as they are after saving and loading. -/
def Sections (tenv : TextEnv) (root root' : Node) : Prop :=
  ∀ name, name ≠ b! "FileId" → findChild (some root') name = (findChild (some root) name).map (loadedNode tenv)

/-- The definitions of types name their type. -/
def PlainTypes (root : Node) : Prop :=
  ∀ n ∈ getChildren (findChild (some root) b! "Definitions"), n.name = b! "ObjectType" →
    ∃ b rest, n.attrs = .str b :: rest ∧ splitName b = none

theorem getChildren_loaded (tenv : TextEnv) (n : Option Node) :
    getChildren (n.map (loadedNode tenv)) = (getChildren n).map (loadedNode tenv) := by
  cases n with
  | none => rfl
  | some n => simp [getChildren, loadedNode_children, loadedNodes_map]

theorem propNodes_loaded (tenv : TextEnv) (n : Option Node) :
    propNodes (n.map (loadedNode tenv)) = ⟨(propNodes n).nodes.map (List.map (loadedNode tenv)), none⟩ := by
  unfold propNodes
  rw [findChild_loaded]
  cases findChild n b! "Properties70" with
  | none => rfl
  | some c => simp [loadedNode_children, loadedNodes_map]

theorem templateOf_loaded (tenv : TextEnv) (root root' : Node) (hs : Sections tenv root root') (hd : PlainTypes root)
    (typ : Bytes) : templateOf root' typ =
      (templateOf root typ).map fun o => ⟨o.nodes.map (List.map (loadedNode tenv)), none⟩ := by
  unfold templateOf
  rw [hs b! "Definitions" (by decide), getChildren_loaded, List.filter_map]
  have e : (getChildren (findChild (some root) b! "Definitions")).filter
      ((fun n => n.name == b! "ObjectType" && toStr (attr (some n) 0) == typ) ∘ loadedNode tenv) =
      (getChildren (findChild (some root) b! "Definitions")).filter
        fun n => n.name == b! "ObjectType" && toStr (attr (some n) 0) == typ := by
    apply List.filter_congr
    intro n hn
    simp only [Function.comp, loadedNode_name]
    by_cases h : n.name = b! "ObjectType"
    · obtain ⟨b, rest, h1, h2⟩ := hd n hn h
      have : (loadedNode tenv n).attrs = .str b :: rest.flatMap (loaded tenv) := by
        rw [loadedNode_attrs, h1, List.flatMap_cons, string_saved tenv b h2]; rfl
      simp [attr, this, h1, toStr]
    · have h' : (n.name == b! "ObjectType") = false := by simpa using h
      rw [h']; rfl
  rw [e, List.getLast?_map, Option.map_map, Option.map_map]
  congr 1
  funext n
  simp only [Function.comp]
  have := findChild_loaded tenv (some n) b! "PropertyTemplate"
  rw [Option.map_some] at this
  rw [this, propNodes_loaded]

/-- Every property is found as before, with related values. -/
theorem propertyOf_loaded (tenv : TextEnv) (root root' : Node) (hs : Sections tenv root root') (hd : PlainTypes root)
    (r : Bytes → List Value → List Value → Prop) (typ name : Bytes) (hr : r name [] []) (n : Option Node)
    (h : ∀ p, p ∈ (propNodes n).nodes.getD [] ∨ (∃ o, templateOf root typ = some o ∧ p ∈ o.nodes.getD []) →
      ∃ name t l f vals, p.attrs = .str name :: .str t :: .str l :: .str f :: vals ∧
        splitName name = none ∧ r name vals (vals.flatMap (loaded tenv))) :
    ∃ p p', propertyOf root typ n name = some p ∧ propertyOf root' typ (n.map (loadedNode tenv)) name = some p' ∧
      r name p.attrs p'.attrs := by
  unfold propertyOf
  rw [propNodes_loaded, templateOf_loaded tenv root root' hs hd]
  have hp : propNodes n = ⟨(propNodes n).nodes, none⟩ := rfl
  cases ht : templateOf root typ with
  | none =>
    have := getProperty_loaded tenv r name hr (propNodes n).nodes none false (by
      intro p hp
      exact h p (.inl (by simpa using hp)))
    simpa [← hp] using this
  | some o =>
    have ho : o = ⟨o.nodes, none⟩ := by
      unfold templateOf at ht
      rw [Option.map_eq_some_iff] at ht
      obtain ⟨n, -, rfl⟩ := ht
      rfl
    have := getProperty_loaded tenv r name hr (propNodes n).nodes o.nodes true (by
      intro p hp
      rcases List.mem_append.1 hp with hp | hp
      · exact h p (.inl hp)
      · exact h p (.inr ⟨o, ht, hp⟩))
    simpa [← hp, ← ho] using this

end Verif.Conv
