import Verif.Fbx.Document

/-!
C30: ids given out by `AddObject`. C31: properties behave like a map from names to values.
-/

namespace Verif.Fbx

open Verif.Mmd (Bytes)

/-! ## C30 -/

namespace IdDoc

/-- Every key of the map leads to an object that has this key as id. -/
def Inv (d : IdDoc) : Prop := ∀ i o, d.get i = some o → d.id o = i

theorem lookup_filter_ne (m : List (Int × Nat)) (i j : Int) (h : j ≠ i) :
    (m.filter fun p => p.1 ≠ i).lookup j = m.lookup j := by
  induction m with
  | nil => rfl
  | cons p m ih =>
    obtain ⟨k, v⟩ := p
    by_cases hk : k = i
    · subst hk
      have : (j == k) = false := by simpa using h
      simpa [List.lookup_cons, this] using ih
    · simp only [ne_eq, hk, not_false_eq_true, decide_true, List.filter_cons_of_pos,
        List.lookup_cons]
      split <;> simp_all

theorem filter_length_lt (m : List (Int × Nat)) (i : Int) (h : (m.lookup i).isSome) :
    (m.filter fun p => p.1 ≠ i).length < m.length := by
  induction m with
  | nil => simp at h
  | cons p m ih =>
    obtain ⟨k, v⟩ := p
    by_cases hk : k = i
    · subst hk
      have := List.length_filter_le (fun p : Int × Nat => decide (p.1 ≠ k)) m
      simp only [ne_eq, not_true_eq_false, decide_false, Bool.false_eq_true, not_false_eq_true,
        List.filter_cons_of_neg, List.length_cons]
      simp only [ne_eq] at this
      omega
    · have hb : (i == k) = false := by simpa using fun e : i = k => hk e.symm
      rw [List.lookup_cons, hb] at h
      have := ih h
      simp only [ne_eq, hk, not_false_eq_true, decide_true, List.filter_cons_of_pos,
        List.length_cons]
      simp only [ne_eq] at this
      omega

theorem firstFree_ge (m : List (Int × Nat)) (fuel : Nat) (i : Int) : i ≤ firstFree m fuel i := by
  induction fuel generalizing i with
  | zero => simp [firstFree]
  | succ n ih =>
    unfold firstFree
    split
    · have := ih (i + 1); omega
    · omega

theorem firstFree_congr (m m' : List (Int × Nat)) (fuel : Nat) (i : Int)
    (h : ∀ j, i ≤ j → m.lookup j = m'.lookup j) : firstFree m fuel i = firstFree m' fuel i := by
  induction fuel generalizing i with
  | zero => rfl
  | succ n ih =>
    simp only [firstFree, h i (Int.le_refl i)]
    rw [ih (i + 1) fun j hj => h j (by omega)]

theorem firstFree_free (fuel : Nat) : ∀ (m : List (Int × Nat)) (i : Int), m.length ≤ fuel →
    m.lookup (firstFree m fuel i) = none := by
  induction fuel with
  | zero =>
    intro m i h
    have : m = [] := List.eq_nil_of_length_eq_zero (by omega)
    simp [this]
  | succ n ih =>
    intro m i h
    by_cases hs : (m.lookup i).isSome
    · have hlt := filter_length_lt m i hs
      have hc := firstFree_congr m (m.filter fun p => p.1 ≠ i) n (i + 1) fun j hj =>
        (lookup_filter_ne m i j (by omega)).symm
      have := ih (m.filter fun p => p.1 ≠ i) (i + 1) (by omega)
      rw [← hc] at this
      have hge := firstFree_ge m n (i + 1)
      rw [lookup_filter_ne m i _ (by omega)] at this
      simpa [firstFree, hs] using this
    · simp only [firstFree, hs, Bool.false_eq_true, if_false]
      exact Option.not_isSome_iff_eq_none.mp hs

theorem newID_free (d : IdDoc) : d.get d.newID.1 = none := firstFree_free _ _ _ (Nat.le_refl _)

theorem get_cons (d : IdDoc) (k i : Int) (o : Nat) (nx : Int) (ob : Option (List Nat))
    (a : Nat → Option Int) :
    (IdDoc.mk ((k, o) :: d.byID) nx ob a).get i = if i = k then some o else d.get i := by
  unfold get
  rw [List.lookup_cons]
  by_cases h : i = k
  · simp [h]
  · have : (i == k) = false := by simpa using h
    simp [this, h]

theorem inv_loadObject (v : Bool) (d : IdDoc) (o : Nat) (h : d.Inv)
    (ho : ∀ i, d.get i ≠ some o) : (loadObject v d o).Inv := by
  unfold loadObject
  cases v
  · intro i p hp
    simp only [Bool.false_eq_true, if_false] at hp ⊢
    rw [get_cons] at hp
    split at hp
    · simp only [Option.some.injEq] at hp; subst hp; subst_vars; rfl
    · exact h i p hp
  · intro i p hp
    simp only [if_true] at hp ⊢
    rw [get_cons] at hp
    split at hp
    · simp only [Option.some.injEq] at hp; subst hp; subst_vars; rfl
    · have hne : p ≠ o := fun e => ho i (e ▸ hp)
      have := h i p hp
      simpa [id, newID, Function.update, hne] using this

theorem get_loadObject (v : Bool) (d : IdDoc) (o p : Nat) (i : Int)
    (h : (loadObject v d o).get i = some p) : p = o ∨ d.get i = some p := by
  unfold loadObject at h
  cases v
  · simp only [Bool.false_eq_true, if_false] at h
    rw [get_cons] at h
    split at h
    · simp only [Option.some.injEq] at h; exact .inl h.symm
    · exact .inr h
  · simp only [if_true] at h
    rw [get_cons] at h
    split at h
    · simp only [Option.some.injEq] at h; exact .inl h.symm
    · exact .inr h

theorem inv_foldl (v : Bool) (objs : List Nat) (d : IdDoc) (h : d.Inv) (hn : objs.Nodup)
    (ho : ∀ o ∈ objs, ∀ i, d.get i ≠ some o) : (objs.foldl (loadObject v) d).Inv := by
  induction objs generalizing d with
  | nil => exact h
  | cons o os ih =>
    rw [List.nodup_cons] at hn
    refine ih _ (inv_loadObject v d o h (ho o (by simp))) hn.2 ?_
    intro p hp i hg
    rcases get_loadObject v d o p i hg with rfl | hg
    · exact hn.1 hp
    · exact ho p (by simp [hp]) i hg

theorem inv_build (v : Bool) (scene : Nat) (a : Nat → Option Int) (objs : List Nat)
    (l : Option (List Nat)) (hn : (scene :: objs).Nodup) : (build v scene a objs l).Inv := by
  rw [List.nodup_cons] at hn
  refine inv_foldl v objs _ ?_ hn.2 ?_
  · intro i o h
    simp only [get, List.lookup_cons, List.lookup_nil] at h
    split at h
    · rename_i hi
      simp only [Option.some.injEq] at h
      subst h
      have : i = 0 := by simpa using hi
      simp [id, this]
    · simp at h
  · intro o ho i h
    simp only [get, List.lookup_cons, List.lookup_nil] at h
    split at h
    · simp only [Option.some.injEq] at h
      exact hn.1 (h ▸ ho)
    · simp at h

/-- What one `AddObject` does to a consistent document: it stays consistent, the object is found
under the returned id, which is the object's id, and everything that could be found before is
found as before. -/
theorem addObject_spec (d d' : IdDoc) (o : Nat) (i : Int) (h : d.Inv)
    (ha : d.addObject o = some (i, d')) :
    d'.Inv ∧ d'.get i = some o ∧ d'.id o = i ∧
      (∀ j p, d.get j = some p → d'.get j = some p ∧ d'.id p = d.id p) := by
  unfold addObject at ha
  by_cases he : d.get (d.id o) = some o
  · simp only [he, if_true, Option.some.injEq, Prod.mk.injEq] at ha
    obtain ⟨rfl, rfl⟩ := ha
    exact ⟨h, he, rfl, fun j p hp => ⟨hp, rfl⟩⟩
  · have hno : ∀ j, d.get j ≠ some o := fun j hj => he (by rw [h j o hj]; exact hj)
    rw [if_neg he] at ha
    by_cases hr : d.id o = 0 ∨ d.get (d.id o) ≠ none
    · simp only [if_pos hr] at ha
      cases hat : d.attr0 o with
      | none => simp [hat] at ha
      | some x =>
        simp only [hat] at ha
        cases hob : d.objects with
        | none => simp [newID, hob] at ha
        | some l =>
          simp only [newID, hob, Option.some.injEq, Prod.mk.injEq] at ha
          obtain ⟨rfl, rfl⟩ := ha
          have hfree : d.get (firstFree d.byID d.byID.length d.nextID) = none := newID_free d
          generalize firstFree d.byID d.byID.length d.nextID = k at hfree ⊢
          have hidk : ∀ (m : List (Int × Nat)) (nx : Int) (ob : Option (List Nat)),
              (IdDoc.mk m nx ob (Function.update d.attr0 o (some k))).id o = k := by
            intro m nx ob; simp [id]
          simp only [hidk]
          refine ⟨?_, ?_, trivial, ?_⟩
          · intro j p hp
            rw [get_cons] at hp
            split at hp
            · simp only [Option.some.injEq] at hp; subst hp; subst_vars; exact hidk _ _ _
            · have hne : p ≠ o := fun e => hno j (e ▸ hp)
              have := h j p hp
              simpa [id, Function.update, hne] using this
          · rw [get_cons]; simp
          · intro j p hp
            have hj : j ≠ k := by
              rintro rfl; rw [hfree] at hp; simp at hp
            refine ⟨by rw [get_cons, if_neg hj]; exact hp, ?_⟩
            have hne : p ≠ o := fun e => hno j (e ▸ hp)
            simp [id, Function.update, hne]
    · simp only [if_neg hr] at ha
      have hn : d.get (d.id o) = none := by
        by_cases hx : d.get (d.id o) = none
        · exact hx
        · exact absurd (.inr hx) hr
      cases hob : d.objects with
      | none => simp [hob] at ha
      | some l =>
        simp only [hob, Option.some.injEq, Prod.mk.injEq] at ha
        obtain ⟨rfl, rfl⟩ := ha
        refine ⟨?_, ?_, rfl, ?_⟩
        · intro j p hp
          rw [get_cons] at hp
          split at hp
          · simp only [Option.some.injEq] at hp; subst hp; subst_vars; rfl
          · exact h j p hp
        · rw [get_cons]; simp
        · intro j p hp
          refine ⟨?_, rfl⟩
          rw [get_cons, if_neg]
          · exact hp
          · rintro rfl; rw [hn] at hp; simp at hp

theorem addAll_spec (os : List Nat) (d d' : IdDoc) (h : d.Inv) (ha : d.addAll os = some d') :
    d'.Inv ∧ (∀ j p, d.get j = some p → d'.get j = some p ∧ d'.id p = d.id p) ∧
      ∀ o ∈ os, d'.get (d'.id o) = some o := by
  induction os generalizing d with
  | nil =>
    simp only [addAll, Option.some.injEq] at ha
    subst ha
    exact ⟨h, fun j p hp => ⟨hp, rfl⟩, by simp⟩
  | cons o os ih =>
    simp only [addAll, Option.bind_eq_some_iff] at ha
    obtain ⟨⟨i, d1⟩, h1, h2⟩ := ha
    obtain ⟨hi, hg, hid, hk⟩ := addObject_spec d d1 o i h h1
    obtain ⟨hi', hk', ho'⟩ := ih d1 hi h2
    refine ⟨hi', ?_, ?_⟩
    · intro j p hp
      obtain ⟨a, b⟩ := hk j p hp
      obtain ⟨a', b'⟩ := hk' j p a
      exact ⟨a', b'.trans b⟩
    · intro p hp
      rcases List.mem_cons.mp hp with rfl | hp
      · obtain ⟨a, b⟩ := hk' i p hg
        rw [b, hid]; exact a
      · exact ho' p hp

/-- C30. Start from any document built by the library (any ids in the file, repeated ones too, both
format variants) and add any sequence of objects. Then every added object is found under its id,
different objects have different ids, whatever could be found before is still found under its old
id, and adding one of them once more changes nothing and returns its id. -/
theorem addObject_unique (v6100 : Bool) (scene : Nat) (attr0 : Nat → Option Int)
    (objs : List Nat) (l : Option (List Nat)) (hn : (scene :: objs).Nodup)
    (os : List Nat) (d : IdDoc) (h : (build v6100 scene attr0 objs l).addAll os = some d) :
    (∀ o ∈ os, d.get (d.id o) = some o) ∧
    (∀ o ∈ os, ∀ p ∈ os, o ≠ p → d.id o ≠ d.id p) ∧
    (∀ i o, (build v6100 scene attr0 objs l).get i = some o → d.get i = some o ∧ d.id o = i) ∧
    (∀ o ∈ os, d.addObject o = some (d.id o, d)) := by
  have hi := inv_build v6100 scene attr0 objs l hn
  obtain ⟨_, hk, ho⟩ := addAll_spec os _ d hi h
  refine ⟨ho, ?_, ?_, ?_⟩
  · intro o hoo p hp hne he
    have h1 := ho o hoo
    have h2 := ho p hp
    rw [he, h2] at h1
    exact hne (by simpa using h1.symm)
  · intro i o hg
    obtain ⟨a, b⟩ := hk i o hg
    exact ⟨a, b.trans (hi i o hg)⟩
  · intro o hoo
    simp [addObject, ho o hoo]

/-- Adding a new object and an object whose id is taken by the file, one of them twice. -/
example : ∃ d, (build false 0 (fun o => if o = 1 then some 7 else if o = 2 then some 7 else some 0)
    [1] (some [1])).addAll [2, 3, 2] = some d ∧ d.id 2 = 1 ∧ d.id 3 = 2 ∧ d.id 1 = 7 ∧
    d.objects = some [1, 2, 3] := ⟨_, rfl, rfl, rfl, rfl, rfl⟩

theorem addObject_succeeds (d : IdDoc) (o : Nat) (ha : d.attr0 o ≠ none) (hl : d.objects ≠ none) :
    ∃ r, d.addObject o = some r ∧ r.2.objects ≠ none ∧
      ∀ p, d.attr0 p ≠ none → r.2.attr0 p ≠ none := by
  obtain ⟨x, hx⟩ := Option.ne_none_iff_exists'.mp ha
  obtain ⟨l, hob⟩ := Option.ne_none_iff_exists'.mp hl
  unfold addObject
  by_cases he : d.get (d.id o) = some o
  · exact ⟨_, by rw [if_pos he], hl, fun p hp => hp⟩
  · rw [if_neg he]
    by_cases hr : d.id o = 0 ∨ d.get (d.id o) ≠ none
    · simp only [if_pos hr, hx, newID, hob]
      refine ⟨_, rfl, by simp, ?_⟩
      intro p hp
      by_cases hpo : p = o
      · simp [hpo]
      · simpa [Function.update, hpo] using hp
    · simp only [if_neg hr, hob]
      exact ⟨_, rfl, by simp, fun p hp => hp⟩

/-- C30: adding objects that have attributes to a document with an `Objects` node never panics, so
the history in `addObject_unique` always exists. -/
theorem addAll_succeeds (os : List Nat) (d : IdDoc) (ha : ∀ o ∈ os, d.attr0 o ≠ none)
    (hl : d.objects ≠ none) : ∃ d', d.addAll os = some d' := by
  induction os generalizing d with
  | nil => exact ⟨d, rfl⟩
  | cons o os ih =>
    obtain ⟨r, hr, h1, h2⟩ := addObject_succeeds d o (ha o (by simp)) hl
    obtain ⟨d', hd⟩ := ih r.2 (fun p hp => h2 p (ha p (by simp [hp]))) h1
    exact ⟨d', by simp [addAll, hr, hd]⟩

example : ∀ o ∈ [2, 3, 2], (fun _ : Nat => some (0 : Int)) o ≠ none := by simp

end IdDoc

/-! ## C31 -/

/-- The specification: a function from names to properties; `set` overwrites one entry. -/
def specProps (f : Bytes → Property) : List PropOp → List Property
  | [] => []
  | .get n :: ops => f n :: specProps f ops
  | .set n p :: ops => specProps (Function.update f n p) ops

/-- The property stored in a node list under a name (first node of that name). -/
def stored (l : List Node) (name : Bytes) : Option Property :=
  (l.find? fun n => toStr (attr (some n) 0) == name).map fun n =>
    { attrs := n.attrs.drop 4
      typ := toStr (attr (some n) 1)
      label := toStr (attr (some n) 2)
      flag := toStr (attr (some n) 3) }

/-- The properties of an object as written in its nodes and those of its template. -/
def initialProps (l : List Node) (tmpl : List Node) (name : Bytes) : Property :=
  ((stored l name).or (stored tmpl name)).getD .empty

/-- Every node has the four leading attributes and no name occurs twice. -/
def WellFormed (l : List Node) : Prop :=
  (∀ n ∈ l, 4 ≤ n.attrs.length) ∧ (l.map fun n => toStr (attr (some n) 0)).Nodup

theorem mapM_propOfNode (l : List Node) (h : ∀ n ∈ l, 4 ≤ n.attrs.length) :
    l.mapM propOfNode = some (l.map fun n => (toStr (attr (some n) 0),
      { attrs := n.attrs.drop 4
        typ := toStr (attr (some n) 1)
        label := toStr (attr (some n) 2)
        flag := toStr (attr (some n) 3) })) := by
  induction l with
  | nil => rfl
  | cons n l ih =>
    have hn := h n (by simp)
    have hp : propOfNode n = some (toStr (attr (some n) 0),
      { attrs := n.attrs.drop 4
        typ := toStr (attr (some n) 1)
        label := toStr (attr (some n) 2)
        flag := toStr (attr (some n) 3) }) := by
      simp only [propOfNode]; rw [if_neg (by omega)]
    rw [List.mapM_cons, hp, ih fun m hm => h m (by simp [hm])]
    rfl

theorem lookup_reverse_map (l : List Node) (name : Bytes) (f : Node → Bytes) (g : Node → Property)
    (h : (l.map f).Nodup) :
    ((l.map fun n => (f n, g n)).reverse).lookup name = (l.find? fun n => f n == name).map g := by
  induction l with
  | nil => rfl
  | cons n l ih =>
    rw [List.map_cons, List.nodup_cons] at h
    simp only [List.map_cons, List.reverse_cons, List.lookup_append, ih h.2, List.find?_cons]
    by_cases hn : f n = name
    · have : l.find? (fun m => f m == name) = none := by
        rw [List.find?_eq_none]
        intro m hm he
        have : f m = name := by simpa using he
        exact h.1 (List.mem_map.mpr ⟨m, hm, by rw [this, hn]⟩)
      simp [this, hn]
    · have h1 : (f n == name) = false := by simpa using hn
      have h2 : (name == f n) = false := by simpa using fun e => hn e.symm
      simp [h1, List.lookup_cons, h2]

/-- The object holds the node list `l`, and its cache, if filled, agrees with it. -/
def Holds (o : PropObj) (l : List Node) : Prop :=
  WellFormed l ∧ (o.nodes = some l ∨ (o.nodes = none ∧ l = [])) ∧
    ∀ c, o.cache = some c → ∀ n, c.lookup n = stored l n

theorem fillCache_spec (o : PropObj) (l : List Node) (h : Holds o l) :
    ∃ o' c, fillCache o = some o' ∧ o'.cache = some c ∧ Holds o' l ∧ o'.nodes = o.nodes ∧
      ∀ n, c.lookup n = stored l n := by
  obtain ⟨hw, hn, hc⟩ := h
  unfold fillCache
  cases hcache : o.cache with
  | some c => exact ⟨o, c, rfl, hcache, ⟨hw, hn, hc⟩, rfl, hc c hcache⟩
  | none =>
    have hl : o.nodes.getD [] = l := by
      rcases hn with h | ⟨h, h'⟩ <;> simp [h, *]
    have hm := mapM_propOfNode l hw.1
    simp only [hl, hm, Option.map_some]
    have hlook := fun n => lookup_reverse_map l n (fun n => toStr (attr (some n) 0))
      (fun n => { attrs := n.attrs.drop 4
                  typ := toStr (attr (some n) 1)
                  label := toStr (attr (some n) 2)
                  flag := toStr (attr (some n) 3) }) hw.2
    refine ⟨_, _, rfl, rfl, ⟨hw, hn, ?_⟩, rfl, hlook⟩
    intro c hc n
    simp only [Option.some.injEq] at hc
    subst hc
    exact hlook n

theorem attr_propAttrs (name nn : Bytes) (p : Property) (ch : List Node) :
    toStr (attr (some (.mk nn (propAttrs name p) ch)) 0) = name ∧
    toStr (attr (some (.mk nn (propAttrs name p) ch)) 1) = p.typ ∧
    toStr (attr (some (.mk nn (propAttrs name p) ch)) 2) = p.label ∧
    toStr (attr (some (.mk nn (propAttrs name p) ch)) 3) = p.flag ∧
    (propAttrs name p).drop 4 = p.attrs := ⟨rfl, rfl, rfl, rfl, rfl⟩

theorem stored_setNode (l : List Node) (name m : Bytes) (p : Property) :
    stored (setNode name p l) m = if m = name then some p else stored l m := by
  induction l with
  | nil =>
    by_cases h : m = name
    · subst h
      simp [setNode, stored, attr, toStr, propAttrs]
    · have : (name == m) = false := by simpa using fun e => h e.symm
      simp [setNode, stored, attr, toStr, propAttrs, this, h]
  | cons n l ih =>
    unfold setNode
    by_cases hn : toStr (attr (some n) 0) = name
    · rw [if_pos hn]
      by_cases h : m = name
      · subst h
        simp [stored, attr, toStr, propAttrs]
      · have h1 : (name == m) = false := by simpa using fun e => h e.symm
        simp only [h, if_false, stored, List.find?_cons, hn, h1]
        simp [attr, toStr, propAttrs, h1]
    · rw [if_neg hn]
      unfold stored at ih ⊢
      by_cases h : toStr (attr (some n) 0) = m
      · have : m ≠ name := fun e => hn (h.trans e)
        simp [List.find?_cons, h, this]
      · have h1 : (toStr (attr (some n) 0) == m) = false := by simpa using h
        simp only [List.find?_cons, h1]
        exact ih

theorem names_setNode (l : List Node) (name : Bytes) (p : Property) :
    (setNode name p l).map (fun n => toStr (attr (some n) 0)) =
      if name ∈ l.map (fun n => toStr (attr (some n) 0)) then
        l.map (fun n => toStr (attr (some n) 0))
      else l.map (fun n => toStr (attr (some n) 0)) ++ [name] := by
  induction l with
  | nil => simp [setNode, attr, toStr, propAttrs]
  | cons n l ih =>
    unfold setNode
    by_cases hn : toStr (attr (some n) 0) = name
    · simp [hn, (attr_propAttrs name n.name p n.children).1]
    · have hn' : ¬ name = toStr (attr (some n) 0) := fun e => hn e.symm
      simp only [hn, if_false, List.map_cons, ih, List.mem_cons, hn', false_or]
      split <;> simp

theorem wellFormed_setNode (l : List Node) (name : Bytes) (p : Property) (h : WellFormed l) :
    WellFormed (setNode name p l) := by
  constructor
  · intro n hn
    have : ∀ l : List Node, (∀ n ∈ l, 4 ≤ n.attrs.length) → n ∈ setNode name p l →
        4 ≤ n.attrs.length := by
      intro l
      induction l with
      | nil =>
        intro _ hn
        simp only [setNode, List.mem_singleton] at hn
        subst hn; simp [propAttrs]
      | cons x xs ih =>
        intro hx hn
        unfold setNode at hn
        split at hn
        · rcases List.mem_cons.mp hn with rfl | hn
          · simp [propAttrs]
          · exact hx n (by simp [hn])
        · rcases List.mem_cons.mp hn with rfl | hn
          · exact hx n (by simp)
          · exact ih (fun y hy => hx y (by simp [hy])) hn
    exact this l h.1 hn
  · rw [names_setNode]
    split
    · exact h.2
    · rename_i hni
      rw [List.nodup_append]
      refine ⟨h.2, by simp, ?_⟩
      intro a ha b hb e
      simp only [List.mem_singleton] at hb
      exact hni (hb ▸ e ▸ ha)

/-- Templates may lack a `Properties70` node; objects must have one to be written to. -/
def HoldsT (t : Option PropObj) (l : List Node) : Prop :=
  match t with
  | none => l = []
  | some t => Holds t l

theorem runProps_spec (ops : List PropOp) (o : PropObj) (t : Option PropObj) (l lt : List Node)
    (f : Bytes → Property) (h : Holds o l) (ht : HoldsT t lt)
    (hset : o.nodes ≠ none) (hf : ∀ n, f n = initialProps l lt n) :
    runProps o t ops = some (specProps f ops) := by
  induction ops generalizing o t l f with
  | nil => rfl
  | cons op ops ih =>
    cases op with
    | get n =>
      obtain ⟨o', c, h1, h2, h3, h4, h5⟩ := fillCache_spec o l h
      have hset' : o'.nodes ≠ none := h4 ▸ hset
      simp only [runProps, specProps, getProperty, h1, h2, Option.getD_some, h5, hf n, initialProps]
      cases hs : stored l n with
      | some p =>
        simp only [Option.bind_some, ih o' t l f h3 ht hset' hf]
        simp
      | none =>
        cases t with
        | none =>
          simp only [HoldsT] at ht
          simp only [Option.bind_some, ih o' none l f h3 ht hset' hf]
          simp [ht, stored]
        | some t =>
          obtain ⟨t', c', g1, g2, g3, g4, g5⟩ := fillCache_spec t lt ht
          simp only [g1, g2, Option.getD_some, g5, Option.bind_some,
            ih o' (some t') l f h3 g3 hset' hf]
          simp
    | set n p =>
      obtain ⟨hw, hn, hc⟩ := h
      have hl : o.nodes = some l := by
        rcases hn with h | ⟨h, _⟩
        · exact h
        · exact absurd h hset
      simp only [runProps, specProps, setProperty, hl, Option.bind_some]
      refine ih _ t (setNode n p l) (Function.update f n p) ⟨wellFormed_setNode l n p hw, .inl rfl, ?_⟩
        ht (by simp) ?_
      · intro c hcc m
        cases hcache : o.cache with
        | none => simp [hcache] at hcc
        | some c0 =>
          simp only [hcache, Option.map_some, Option.some.injEq] at hcc
          subst hcc
          rw [stored_setNode, List.lookup_cons]
          by_cases hm : m = n
          · simp [hm]
          · have : (m == n) = false := by simpa using hm
            simp [this, hm, hc c0 hcache m]
      · intro m
        simp only [initialProps, stored_setNode]
        by_cases hm : m = n
        · subst hm; simp
        · simp [Function.update, hm, hf m, initialProps]

/-- C31 for objects whose property names are unique. Any history of gets and sets behaves like a
plain map from names to properties: a get returns what was last set under that name, or what the
file (or the template) says if it was never set, and a set changes no other name. This does not
depend on when the cache is filled. -/
theorem property_history_partial (l lt : List Node) (tmpl : Bool) (h : WellFormed l)
    (ht : WellFormed lt) (ops : List PropOp) :
    runProps ⟨some l, none⟩ (if tmpl then some ⟨some lt, none⟩ else none) ops =
      some (specProps (initialProps l (if tmpl then lt else [])) ops) := by
  refine runProps_spec ops _ _ l (if tmpl then lt else []) _ ⟨h, .inl rfl, by simp⟩ ?_ (by simp)
    fun _ => rfl
  cases tmpl
  · rfl
  · exact ⟨ht, .inl rfl, by simp⟩

/-- A property list with two names is well formed. -/
example : WellFormed [.mk b! "P" [.str b! "a", .str [], .str [], .str [], .num .i32 1] [],
    .mk b! "P" [.str b! "b", .str [], .str [], .str []] []] := by
  constructor
  · intro n hn; simp at hn; rcases hn with rfl | rfl <;> simp
  · simp [attr, toStr]

/-- C31 in its plain form, a consequence: set then get, after and before any other calls that do
not set the same name. -/
theorem set_then_get_partial (l : List Node) (h : WellFormed l) (before between : List PropOp)
    (name : Bytes) (p : Property) (hb : ∀ q, PropOp.set name q ∉ between) :
    (runProps ⟨some l, none⟩ none (before ++ .set name p :: between ++ [.get name])).map
      List.getLast? = some (some p) := by
  have := property_history_partial l [] false h ⟨by simp, by simp⟩
    (before ++ .set name p :: between ++ [.get name])
  simp only [Bool.false_eq_true, if_false] at this
  rw [this]
  have h2 : ∀ (ops : List PropOp) (f : Bytes → Property), f name = p →
      (∀ q, PropOp.set name q ∉ ops) →
      (specProps f (ops ++ [.get name])).getLast? = some p := by
    intro ops
    induction ops with
    | nil => intro f hf _; simp [specProps, hf]
    | cons op ops ih =>
      intro f hf hq
      have hq' : ∀ q, PropOp.set name q ∉ ops := fun q hx => hq q (by simp [hx])
      cases op with
      | get n =>
        simp only [List.cons_append, specProps]
        rw [List.getLast?_cons, ih f hf hq']; rfl
      | set n q =>
        simp only [List.cons_append, specProps]
        refine ih _ ?_ hq'
        have : name ≠ n := fun e => hq q (by simp [e])
        simp [Function.update, this, hf]
  have h3 : ∀ (ops rest : List PropOp) (f : Bytes → Property),
      (∀ f, (specProps f rest).getLast? = some p) →
      (specProps f (ops ++ rest)).getLast? = some p := by
    intro ops rest
    induction ops with
    | nil => intro f hr; exact hr f
    | cons op ops ih =>
      intro f hr
      cases op with
      | get n =>
        simp only [List.cons_append, specProps]
        rw [List.getLast?_cons, ih f hr]; rfl
      | set n q => exact ih _ hr
  simp only [Option.map_some, Option.some.injEq, List.append_assoc]
  exact h3 _ _ _ fun f => h2 between _ (by simp) hb

example : ∀ q, PropOp.set b! "a" q ∉ [PropOp.get b! "a", .set b! "b" q] := by
  intro q; simp

/-- C31 is false in general: a file may list a name twice. The set then changes the first entry,
while a get that fills the cache afterwards sees the last one — the value just set is not
returned, whatever the two values are. -/
theorem set_then_get_false (nn1 nn2 name : Bytes) (t1 l1 f1 t2 l2 f2 : Bytes) (v1 v2 : List Value)
    (c1 c2 : List Node) (p : Property) (hp : p.attrs ≠ v2) :
    ∃ q, runProps ⟨some [.mk nn1 (.str name :: .str t1 :: .str l1 :: .str f1 :: v1) c1,
        .mk nn2 (.str name :: .str t2 :: .str l2 :: .str f2 :: v2) c2], none⟩ none
        [.set name p, .get name] = some [q] ∧ q ≠ p := by
  refine ⟨⟨v2, t2, l2, f2⟩, ?_, fun e => hp (by rw [← e])⟩
  have e1 : toStr (attr (some (.mk nn1 (.str name :: .str t1 :: .str l1 :: .str f1 :: v1) c1)) 0) =
      name := rfl
  simp only [runProps, setProperty, setNode, e1, if_true, Option.map_none, Option.bind_some,
    getProperty, fillCache, Option.getD_some]
  have h4 : ∀ k : Nat, ¬ k + 1 + 1 + 1 + 1 < 4 := by omega
  simp [propOfNode, propAttrs, attr, toStr, h4]

/-- Two entries "a" with values 1 and 2; setting 3 and reading gives 2. -/
example : (⟨[.num .i32 3], [], [], []⟩ : Property).attrs ≠ [.num .i32 2] := by decide

/-- Writing to an object that has no `Properties70` node is a nil dereference. -/
theorem setProperty_panics (name : Bytes) (p : Property) (c) :
    setProperty ⟨none, c⟩ name p = none := rfl

/-- Reading from an object with a property node that has fewer than four attributes is a slice
bounds panic, whatever name is asked for. -/
theorem getProperty_panics (l : List Node) (t : Option PropObj) (name : Bytes) (n : Node)
    (hn : n ∈ l) (h : n.attrs.length < 4) : getProperty ⟨some l, none⟩ t name = none := by
  have : l.mapM propOfNode = none := by
    induction l with
    | nil => simp at hn
    | cons x xs ih =>
      rw [List.mapM_cons]
      rcases List.mem_cons.mp hn with rfl | hn
      · simp [propOfNode, h]
      · rw [ih hn]
        cases propOfNode x <;> rfl
  simp [getProperty, fillCache, this]

example : (Node.mk b! "P" [.str b! "Lcl Translation"] []).attrs.length < 4 := by decide

end Verif.Fbx
