import Verif.Conv.UnityFile

/-! Game objects of Unity files in the loaded scene. -/

namespace Verif.Conv

open Verif.Geom
open Verif.Mqo (Object)
open Verif.Unity

variable {F : Type} [Field F] {trunc : F → Int} {assets : Unity.Str → Option (List (Int × Doc F))}

set_option linter.unusedSectionVars false

theorem hasTransform_iff (docs : List (Int × Doc F)) (k : Int) :
    hasTransform docs k = true ↔ ∃ t, (k, Doc.transform t) ∈ docs := by
  unfold hasTransform
  rw [List.any_eq_true]
  constructor
  · rintro ⟨⟨j, d⟩, h1, h2⟩
    simp only [Bool.and_eq_true, decide_eq_true_eq] at h2
    obtain ⟨rfl, h3⟩ := h2
    cases d <;> simp only [Bool.false_eq_true] at h3
    exact ⟨_, h1⟩
  · rintro ⟨t, ht⟩
    exact ⟨_, ht, by simp⟩

theorem doc_unique {docs : List (Int × Doc F)} (nd : (docs.map Prod.fst).Nodup) {k : Int} {d d' : Doc F}
    (h : (k, d) ∈ docs) (h' : (k, d') ∈ docs) : d = d' := by
  have := List.inj_on_of_nodup_map nd h h' rfl
  cases this
  rfl

theorem findSome_doc {β : Type} (g : Doc F → Option β) (k : Int) : ∀ (docs : List (Int × Doc F)), (docs.map Prod.fst).Nodup →
    ∀ d, (k, d) ∈ docs → (docs.findSome? fun e => if e.1 = k then g e.2 else none) = g d := by
  intro docs
  induction docs with
  | nil => exact fun _ d hd => by cases hd
  | cons e docs ih =>
    intro nd d hd
    rw [List.map_cons, List.nodup_cons] at nd
    rw [List.findSome?_cons]
    rcases List.mem_cons.1 hd with rfl | hd
    · rw [if_pos rfl]
      have : (docs.findSome? fun e => if e.1 = k then g e.2 else none) = none := by
        rw [List.findSome?_eq_none_iff]
        intro x hx
        rw [if_neg (by rintro rfl; exact nd.1 (List.mem_map.2 ⟨x, hx, rfl⟩))]
      simp only
      cases hg : g d with
      | none => exact this
      | some y => rfl
    · rw [if_neg (by rintro rfl; exact nd.1 (List.mem_map.2 ⟨_, hd, rfl⟩))]
      exact ih nd.2 d hd

theorem mapIdx_eq {α : Type} (g : Nat → α → α) (ms ms' : List α) (hl : ms'.length = ms.length)
    (hg : ∀ i x, ms[i]? = some x → ms'[i]? = some (g i x)) : ms' = ms.mapIdx g := by
  apply List.ext_getElem?
  intro i
  rw [List.getElem?_mapIdx]
  cases h : ms[i]? with
  | none =>
    rw [List.getElem?_eq_none_iff] at h
    simp [hl, h]
  | some x => simpa using hg i x h

section

variable {h : Heap F} {s hi : Nat} {mods : List (Modification F)} {docs : List (Int × Doc F)}

/-- The kind of an element is the kind of its document. -/
theorem shows_transform (w : Shows trunc assets h s hi mods docs) (k : Int) :
    (h.transform (s, k)).isSome = hasTransform docs k := by
  have v := shows_values w
  by_cases hk : k ∈ docs.map Prod.fst
  · obtain ⟨⟨j, d⟩, hd, rfl⟩ := List.mem_map.1 hk
    rw [Bool.eq_iff_iff, hasTransform_iff]
    constructor
    · intro ht
      obtain ⟨t, ht⟩ := Option.isSome_iff_exists.1 ht
      rw [transform_elem] at ht
      cases d with
      | transform t => exact ⟨t, hd⟩
      | object o =>
        have := v.objects j o hd
        rw [object_elem, ht] at this
        cases this
      | renderer e ms =>
        obtain ⟨_, h1, _⟩ := v.renderers j e ms hd
        rw [ht] at h1
        cases h1
      | other c =>
        have h1 := v.others j c hd
        rw [ht] at h1
        cases h1
      | prefab p =>
        cases w with
        | mk _ _ _ _ f g range rootsIn own absent missing place sub apart =>
          cases hp : prefabDocs assets p with
          | none =>
            have := missing j p hd hp
            rw [ht] at this
            cases this
          | some x =>
            have := (place j p x.1 x.2 hd hp).1
            rw [ht] at this
            cases this
    · rintro ⟨t, ht⟩
      obtain ⟨u, hu, _⟩ := v.transforms _ t ht
      rw [hu]
      rfl
  · have h1 := v.nothing k hk
    have h2 : hasTransform docs k = false := by
      rw [Bool.eq_false_iff]
      intro hc
      obtain ⟨t, ht⟩ := (hasTransform_iff docs k).1 hc
      exact hk (List.mem_map.2 ⟨_, ht, rfl⟩)
    simp [Heap.transform, h1, h2]

theorem shows_nothing (w : Shows trunc assets h s hi mods docs) (hz : (0 : Int) ∉ docs.map Prod.fst) :
    h.elem (s, 0) = none := (shows_values w).nothing 0 hz

theorem shows_element (w : Shows trunc assets h s hi mods docs) (hz : (0 : Int) ∉ docs.map Prod.fst) (r : Ref)
    (inst : Option Ref) (hv : validRef inst = false) :
    getElement h s r inst = if (h.elem (s, r.fileID)).isSome then some (s, r.fileID) else none := by
  unfold getElement
  by_cases h0 : r.fileID = 0
  · rw [if_pos (by simp [Ref.valid, h0]), h0, shows_nothing w hz]
    rfl
  · rw [if_neg (by simp [Ref.valid, h0]), if_neg (by simp [hv])]

theorem shows_find (w : Shows trunc assets h s hi mods docs) (hz : (0 : Int) ∉ docs.map Prod.fst) (r : Ref)
    (inst : Option Ref) (hv : validRef inst = false) :
    findTransform h s r inst = if hasTransform docs r.fileID then some (s, r.fileID) else none := by
  have e := shows_transform w r.fileID
  unfold findTransform
  rw [shows_element w hz r inst hv]
  cases he : h.elem (s, r.fileID) with
  | none =>
    have : (h.transform (s, r.fileID)).isSome = false := by simp [Heap.transform, he]
    rw [this] at e
    rw [← e]
    rfl
  | some x =>
    rw [← e]
    rfl

theorem findSome_find {α β : Type} (g : α → Int) (p : Int → Bool) (q : Int → β) (l : List α) :
    (l.findSome? fun c => if p (g c) then some (q (g c)) else none) = ((l.map g).find? p).map q := by
  induction l with
  | nil => rfl
  | cons c l ih =>
    rw [List.findSome?_cons, List.map_cons, List.find?_cons]
    cases p (g c) with
    | false => exact ih
    | true => rfl

/-- The transform of a game object. -/
theorem shows_objectTransform (w : Shows trunc assets h s hi mods docs) (hz : (0 : Int) ∉ docs.map Prod.fst) (k : Int)
    (o : GameObject) (ho : (k, Doc.object o) ∈ docs) (hv : validRef o.inst = false) :
    objectTransform h (s, k) = (transformId docs o).map fun kt => (s, kt) := by
  have h1 := (shows_values w).objects k o ho
  unfold objectTransform transformId
  rw [h1]
  simp only
  rw [← findSome_find]
  congr 1
  funext c
  exact shows_find w hz c o.inst hv

theorem shows_part (w : Shows trunc assets h s hi mods docs) (nd : (docs.map Prod.fst).Nodup) (guid : Unity.Str) (j : Int) :
    (h.elem (s, j)).bind partOf = partAt trunc ⟨guid, mods, docs⟩ j := by
  have v := shows_values w
  by_cases hk : j ∈ docs.map Prod.fst
  · obtain ⟨⟨j, d⟩, hd, rfl⟩ := List.mem_map.1 hk
    have e : partAt trunc ⟨guid, mods, docs⟩ j = partWith trunc mods j d := findSome_doc (partWith trunc mods j) j docs nd d hd
    simp only
    rw [e]
    cases d with
    | transform t =>
      obtain ⟨u, hu, _⟩ := v.transforms j t hd
      rw [(transform_elem _ _ _).1 hu]
      rfl
    | object o =>
      rw [(object_elem _ _ _).1 (v.objects j o hd)]
      rfl
    | renderer en ms =>
      obtain ⟨ms', h1, h2, h3⟩ := v.renderers j en ms hd
      rw [h1, mapIdx_eq _ ms ms' h2 h3]
      rfl
    | other c =>
      rw [v.others j _ hd]
      rfl
    | prefab p =>
      cases w with
      | mk _ _ _ _ f g range rootsIn own absent missing place sub apart =>
        cases hp : prefabDocs assets p with
        | none =>
          rw [missing j p hd hp]
          rfl
        | some x =>
          rw [(place j p x.1 x.2 hd hp).1]
          rfl
  · rw [v.nothing j hk]
    symm
    show partAt trunc ⟨guid, mods, docs⟩ j = none
    unfold partAt
    rw [List.findSome?_eq_none_iff]
    intro x hx
    rw [if_neg (by rintro rfl; exact hk (List.mem_map.2 ⟨x, hx, rfl⟩))]

/-- Different instances of a file are different scenes. -/
theorem shows_inj (w : Shows trunc assets h s hi mods docs) (j j' : Int) (p p' : PrefabDoc F)
    (hj : (j, Doc.prefab p) ∈ docs) (hj' : (j', Doc.prefab p') ∈ docs) (x : Nat) (e : h.elem (s, j) = some (.prefab x))
    (e' : h.elem (s, j') = some (.prefab x)) : j = j' := by
  by_contra hne
  cases w with
  | mk _ _ _ _ f g range rootsIn own absent missing place sub apart =>
    have hs : ∀ j p, (j, Doc.prefab p) ∈ docs → h.elem (s, j) = some (.prefab x) → ∃ gd ds, prefabDocs assets p = some (gd, ds) := by
      intro j p hj e
      cases hp : prefabDocs assets p with
      | none =>
        rw [missing j p hj hp] at e
        cases e
      | some y => exact ⟨y.1, y.2, rfl⟩
    obtain ⟨gd, ds, h1⟩ := hs j p hj e
    obtain ⟨gd', ds', h2⟩ := hs j' p' hj' e'
    obtain ⟨a1, _, _, a4⟩ := place j p gd ds hj h1
    obtain ⟨b1, _, _, b4⟩ := place j' p' gd' ds' hj' h2
    rw [e] at a1
    rw [e'] at b1
    have c1 := (sub j p gd ds hj h1).lt
    have c2 := (sub j' p' gd' ds' hj' h2).lt
    cases a1
    have : f j = f j' := by simpa using b1
    rcases apart j p j' p' hj (by rw [h1]; rfl) hj' (by rw [h2]; rfl) hne with h3 | h3 <;> omega

end

/-- A file in the loaded scenes. -/
structure Here (trunc : F → Int) (assets : Unity.Str → Option (List (Int × Doc F))) (h : Heap F) (s : Nat) (f : UFile F) : Prop where
  shows : ∃ hi, Shows trunc assets h s hi f.mods f.docs
  recorded : Recorded trunc assets h s f.guid f.docs
  nodup : (f.docs.map Prod.fst).Nodup
  file : FileOk f.docs

section

variable {h : Heap F} {s : Nat} {f : UFile F}

theorem Here.sub (ha : ∀ g ds, assets g = some ds → (ds.map Prod.fst).Nodup) (w : Here trunc assets h s f) (j : Int)
    (f' : UFile F) (hi : InstanceAt assets f j f') (ok : FileOk f'.docs) :
    ∃ s', h.elem (s, j) = some (.prefab s') ∧ s < s' ∧ Here trunc assets h s' f' := by
  obtain ⟨p, h1, h2, h3⟩ := hi
  obtain ⟨s', h4, h5⟩ := w.recorded.sub ha w.nodup w.file.parents j p f'.guid f'.docs h1 h2
  obtain ⟨hi', sh⟩ := w.shows
  cases sh with
  | mk _ _ _ _ F' g range rootsIn own absent missing place sub apart =>
    obtain ⟨a1, _, a3, _⟩ := place j p f'.guid f'.docs h1 h2
    have e := a1.symm.trans h4
    have e : F' j = s' := by simpa using e
    have sb := sub j p f'.guid f'.docs h1 h2
    rw [e] at sb a3
    rw [← h3] at sb
    refine ⟨s', h4, a3, ⟨_, sb⟩, h5, ?_, ok⟩
    unfold prefabDocs at h2
    split at h2
    · split at h2
      · rename_i src _ _
        cases hx : assets src.guid with
        | none => rw [hx] at h2; cases h2
        | some ds =>
          rw [hx] at h2
          simp only [Option.map_some, Option.some.injEq, Prod.mk.injEq] at h2
          rw [← h2.2]
          exact ha _ _ hx
      · cases h2
    · cases h2

theorem Here.loaded (ha : ∀ g ds, assets g = some ds → (ds.map Prod.fst).Nodup) (w : Here trunc assets h s f) :
    ∃ h1 h2, h1.count = s ∧ Loaded trunc assets f.guid f.docs h1 h2 ∧ Keeps h2 h s := by
  obtain ⟨fuel, h1, h2, ok, e, hl, kp⟩ := w.recorded
  exact ⟨h1, h2, e, loadScene_ok trunc assets ha fuel f.guid f.docs h1 h2 ok w.nodup hl, kp⟩

theorem Here.guid (ha : ∀ g ds, assets g = some ds → (ds.map Prod.fst).Nodup) (w : Here trunc assets h s f) :
    h.guid s = f.guid := by
  obtain ⟨h1, h2, rfl, L, K⟩ := w.loaded ha
  rw [K.links.guid _ (Nat.le_refl _) L.count]
  exact L.guid

/-- What an instance adds is the same later. -/
theorem keeps_addedBy {h2 : Heap F} (K : Keeps h2 h s) (ok : h2.Ok) (hs : s < h2.count) (d : Int × Doc F) (e : Ref × Ptr) :
    AddedBy h s d e ↔ AddedBy h2 s d e := by
  unfold AddedBy
  rw [K.links.guid s (Nat.le_refl _) hs]
  have pe : ∀ k x, h.elem (s, k) = some (.prefab x) ↔ h2.elem (s, k) = some (.prefab x) :=
    fun k x => (K.links.elem (s, k) (Nat.le_refl _) hs).prefab x
  constructor
  · rintro ⟨p, x, root, tr, par, o, c, k1, k2, k3, k4, k5, k6, k7, k8, k9⟩
    rw [pe] at k2
    have hx := ok.prefab _ _ _ k2
    rw [K.roots x (by omega) hx.2] at k3
    have hr := ok.roots x root (List.mem_of_mem_head? k3)
    obtain ⟨i1, i2⟩ := links_addedBy (K.links.mono (Nat.le_of_lt hx.1)) ok hx.2 root hr tr c
    obtain ⟨o', j1, j2, j3⟩ := i2.1 ⟨o, k6, k7, k8⟩
    exact ⟨p, x, root, tr, par, o', c, k1, k2, k3, i1.1 k4, k5, j1, j2, j3, k9⟩
  · rintro ⟨p, x, root, tr, par, o, c, k1, k2, k3, k4, k5, k6, k7, k8, k9⟩
    have hx := ok.prefab _ _ _ k2
    have hr := ok.roots x root (List.mem_of_mem_head? k3)
    obtain ⟨i1, i2⟩ := links_addedBy (K.links.mono (Nat.le_of_lt hx.1)) ok hx.2 root hr tr c
    obtain ⟨o', j1, j2, j3⟩ := i2.2 ⟨o, k6, k7, k8⟩
    exact ⟨p, x, root, tr, par, o', c, k1, (pe _ _).2 k2, by rw [K.roots x (by omega) hx.2]; exact k3, i1.2 k4, k5, j1, j2, j3, k9⟩

/-- The children of a transform of the file. -/
theorem Here.children (ha : ∀ g ds, assets g = some ds → (ds.map Prod.fst).Nodup) (w : Here trunc assets h s f)
    (kt : Int) (t : Transform F) (ht : (kt, Doc.transform t) ∈ f.docs) :
    ∃ x : List Ptr, getChildren h (s, kt) = (t.children.filterMap fun c => sceneTransform h s c t.inst) ++ x ∧ x.Nodup ∧
      (∀ c ∈ x, c ∉ t.children.filterMap fun c => sceneTransform h s c t.inst) ∧
      (∀ c ∈ x, ∃ d ∈ f.docs, ∃ e, AddedBy h s d e ∧ e.2 = c ∧ sceneTransform h s e.1 none = some (s, kt)) ∧
      (∀ d ∈ f.docs, ∀ e, AddedBy h s d e → sceneTransform h s e.1 none = some (s, kt) →
        (e.2 ∈ t.children.filterMap fun c => sceneTransform h s c t.inst) ∨ e.2 ∈ x) := by
  obtain ⟨h1, h2, rfl, L, K⟩ := w.loaded ha
  have sc : ∀ r inst, sceneTransform h h1.count r inst = sceneTransform h2 h1.count r inst :=
    fun r inst => K.links.sceneTransform L.ok L.count r inst
  have ad := keeps_addedBy K L.ok L.count
  obtain ⟨base, x, c1, c2, c3, c4, c5, c6⟩ := L.children (h1.count, kt)
  have hb := c6 kt t ht rfl
  simp only [sc, ad]
  subst hb
  refine ⟨x, ?_, c2, c3, c4, c5⟩
  rw [K.children (h1.count, kt) (Nat.le_refl _) L.count]
  exact c1

/-- Where the parent of an instance is. -/
theorem Here.parent (w : Here trunc assets h s f) (j : Int) (p : PrefabDoc F) (par : Ref) (g : Unity.Str)
    (hj : (j, Doc.prefab p) ∈ f.docs) (hp : p.parent = some par) (q : Ptr) :
    sceneTransform h s { par with guid := g } none = some q ↔ par.fileID ≠ 0 ∧ q = (s, par.fileID) := by
  obtain ⟨hi, sh⟩ := w.shows
  unfold sceneTransform
  rw [shows_find sh w.file.zero _ none rfl]
  by_cases h0 : par.fileID = 0
  · have : hasTransform f.docs par.fileID = false := by
      rw [Bool.eq_false_iff]
      intro hc
      obtain ⟨t, ht⟩ := (hasTransform_iff _ _).1 hc
      rw [h0] at ht
      exact w.file.zero (List.mem_map.2 ⟨_, ht, rfl⟩)
    rw [if_neg (by simp [this])]
    simp [h0]
  · obtain ⟨t, ht, hg⟩ := w.file.parents j p par hj hp h0
    obtain ⟨u, hu, _, _, _, u1, u2, u3, u4⟩ := (shows_values sh).transforms _ t ht
    rw [if_pos ((hasTransform_iff _ _).2 ⟨t, ht⟩)]
    simp only [hu]
    cases hsrc : u.source with
    | none =>
      simp only [Option.some.injEq]
      exact ⟨fun e => ⟨h0, e.symm⟩, fun e => e.2.symm⟩
    | some src =>
      simp only
      rw [if_neg (by simp [Ref.valid, u1, hg])]
      simp only [Option.some.injEq]
      exact ⟨fun e => ⟨h0, e.symm⟩, fun e => e.2.symm⟩

/-- The game object is in the loaded scene. -/
theorem Here.node (w : Here trunc assets h s f) (k kt : Int) (o : GameObject) (t : Transform F) (x : UNode F)
    (hx : ObjectAt trunc f k kt o t x) : NodeIn h (s, k) (s, kt) x := by
  obtain ⟨hi, sh⟩ := w.shows
  have v := shows_values sh
  have ho := v.objects k o hx.object
  obtain ⟨u, hu, u1, u2, u3, u4, u5, u6, u7⟩ := v.transforms kt t hx.transform
  refine ⟨⟨_, ho, hx.name.symm, hx.active⟩, ?_, ⟨u, hu, u1.trans hx.position.symm, u2.trans hx.rotation.symm,
    u3.trans hx.scale.symm⟩, ?_, ?_⟩
  · rw [shows_objectTransform sh w.file.zero k o hx.object hx.inst, hx.first]
    rfl
  · unfold transformObject
    rw [hu]
    simp only
    rw [shows_element sh w.file.zero _ _ (by rw [u6]; exact hx.tinst), u4, hx.back]
    rw [(object_elem _ _ _).1 ho]
    simp [ho]
  · unfold componentsOf
    rw [ho, hx.parts, List.filterMap_filterMap]
    congr 1
    funext c
    rw [← shows_part sh w.nodup f.guid c.fileID]
    simp only
    rw [shows_element sh w.file.zero _ _ hx.inst]
    cases he : h.elem (s, c.fileID) with
    | none => rfl
    | some e => simp [he]

/-- A listed child that is a game object of the file. -/
theorem Here.ownChild (w : Here trunc assets h s f) (k : Int) (r : Ref) (o : GameObject) (t : Transform F) (x : UNode F)
    (hx : ObjectAt trunc f k r.fileID o t x) (inst : Option Ref) (hv : validRef inst = false) :
    sceneTransform h s r inst = some (s, r.fileID) := by
  obtain ⟨hi, sh⟩ := w.shows
  obtain ⟨u, hu, u1, u2, u3, u4, u5, u6, u7⟩ := (shows_values sh).transforms _ t hx.transform
  unfold sceneTransform
  rw [shows_find sh w.file.zero _ inst hv, if_pos ((hasTransform_iff _ _).2 ⟨t, hx.transform⟩)]
  simp only [hu]
  have h0 : k ≠ 0 := by
    rintro rfl
    exact w.file.zero (List.mem_map.2 ⟨_, hx.object, rfl⟩)
  cases u.source with
  | none => rfl
  | some src =>
    simp only
    rw [if_neg (by simp [Ref.valid, u4, hx.back, h0])]

/-- A listed child that is a placeholder. -/
theorem Here.placeholder (ha : ∀ g ds, assets g = some ds → (ds.map Prod.fst).Nodup) (w : Here trunc assets h s f)
    (r : Ref) (j kt' : Int) (hp : Placeholder f r.fileID j kt') (s' : Nat) (f' : UFile F)
    (hj : j ∈ f.docs.map Prod.fst) (he : h.elem (s, j) = some (.prefab s')) (w' : Here trunc assets h s' f')
    (ht : hasTransform f'.docs kt' = true) (inst : Option Ref) (hv : validRef inst = false) :
    sceneTransform h s r inst = some (s', kt') := by
  obtain ⟨hi, sh⟩ := w.shows
  obtain ⟨hi', sh'⟩ := w'.shows
  obtain ⟨ph, src, i, p1, p2, p3, p4, p5, p6, p7, p8⟩ := hp
  obtain ⟨u, hu, u1, u2, u3, u4, u5, u6, u7⟩ := (shows_values sh).transforms _ ph p1
  have hk0 : kt' ≠ 0 := by
    rintro rfl
    obtain ⟨t, ht⟩ := (hasTransform_iff _ _).1 ht
    exact w'.file.zero (List.mem_map.2 ⟨_, ht, rfl⟩)
  have hj0 : j ≠ 0 := by
    rintro rfl
    exact w.file.zero hj
  have hel : (h.transform (s', kt')).isSome = true := by rw [shows_transform sh', ht]
  have hel' : (h.elem (s', kt')).isSome = true := by
    obtain ⟨x, hx⟩ := Option.isSome_iff_exists.1 hel
    rw [(transform_elem _ _ _).1 hx]
    rfl
  have hf : findTransform h s src u.inst = some (s', kt') := by
    unfold findTransform getElement
    rw [if_neg (by simp [Ref.valid, p4, hk0]), u6, p7, if_pos ⟨p5, by rw [w.guid ha]; exact p6, by simp [validRef, Ref.valid, p8, hj0]⟩]
    simp only [p8, he, p4, hel', if_true, hel]
  unfold sceneTransform
  rw [shows_find sh w.file.zero _ inst hv, if_pos ((hasTransform_iff _ _).2 ⟨ph, p1⟩)]
  simp only [hu, u5, p3]
  rw [if_pos (by simp [Ref.valid, u4, p2, p4, hk0])]
  simp only [hf]

/-- What a document adds to the roots. -/
theorem loaded_root {guid : Unity.Str} {docs : List (Int × Doc F)} {h1 h2 : Heap F} (L : Loaded trunc assets guid docs h1 h2)
    (nd : (docs.map Prod.fst).Nodup) (ok : FileOk docs) (d : Int × Doc F) (hd : d ∈ docs) :
    (objectsOf h2 h1.count d).filter (isRoot h2) = match rootEntry assets docs d with
      | some (.inl k) => [(h1.count, k)]
      | some (.inr _) => objectsOf h2 h1.count d
      | none => [] := by
  obtain ⟨k, d⟩ := d
  have v := shows_values L.shows
  cases d with
  | object o =>
    have ho : h2.object (h1.count, k) = some o := v.objects k o hd
    have key : isRoot h2 (h1.count, k) = rootDoc docs o := by
      unfold isRoot rootDoc
      rw [ho]
      cases hsrc : validRef o.source with
      | true =>
        cases objectTransform h2 (h1.count, k) with
        | none => rfl
        | some tr => cases ht : h2.transform tr <;> simp [ht, hsrc]
      | false =>
        have hin : validRef o.inst = false := by
          rcases ok.own k o hd with h | h
          · rw [hsrc] at h
            cases h
          · exact h
        rw [shows_objectTransform L.shows ok.zero k o hd hin]
        cases hk : transformId docs o with
        | none => simp
        | some kt =>
          obtain ⟨t, ht⟩ := (hasTransform_iff _ _).1 (List.find?_some hk)
          obtain ⟨a, hu⟩ := L.own kt t ht
          simp only [Option.map_some, hu, hsrc, Bool.not_false, Bool.and_true, Bool.true_and]
          rw [Bool.eq_iff_iff, List.any_eq_true]
          constructor
          · intro hz
            exact ⟨_, ht, by simpa [Ref.valid] using hz⟩
          · rintro ⟨⟨j, e⟩, he, hx⟩
            simp only [Bool.and_eq_true, decide_eq_true_eq] at hx
            obtain ⟨rfl, hx⟩ := hx
            cases doc_unique nd he ht
            simpa [Ref.valid] using hx
    simp only [objectsOf, rootEntry, List.filter_cons, List.filter_nil, key]
    cases rootDoc docs o <;> rfl
  | prefab p =>
    have hf : ∀ r ∈ objectsOf h2 h1.count (k, Doc.prefab p), (isRoot h2 r = true ↔ p.parent.map Ref.fileID = some 0) ∧
        prefabDocs assets p ≠ none := by
      intro r hr
      unfold objectsOf at hr
      simp only at hr
      split at hr
      · rename_i x hx
        have hr' : (h2.roots x).head? = some r := by simpa using hr
        obtain ⟨tr, o, par, t, f1, f2, f3, f4, f5, f6⟩ := L.fathers _ hd p x r rfl hx hr'
        refine ⟨?_, ?_⟩
        · unfold isRoot
          rw [f1]
          simp only [f2, f5, f3, f6, f4]
          simp [Ref.valid]
        · intro hn
          cases L.shows with
          | mk _ _ _ _ f g range rootsIn own absent missing place sub apart =>
            rw [missing k p hd hn] at hx
            cases hx
      · cases hr
    simp only [rootEntry]
    by_cases hp : p.parent.map Ref.fileID = some 0
    · rw [if_pos hp]
      cases hg : prefabDocs assets p with
      | none =>
        simp only [Option.map_none]
        rw [List.filter_eq_nil_iff]
        intro r hr
        exact absurd hg (hf r hr).2
      | some g =>
        simp only [Option.map_some]
        rw [List.filter_eq_self]
        exact fun r hr => (hf r hr).1.2 hp
    · rw [if_neg hp]
      simp only
      rw [List.filter_eq_nil_iff]
      exact fun r hr hc => hp ((hf r hr).1.1 hc)
  | _ => simp [objectsOf, rootEntry]

/-- The only root of a prefab. -/
theorem Here.root (ha : ∀ g ds, assets g = some ds → (ds.map Prod.fst).Nodup) (w : Here trunc assets h s f) (k : Int)
    (hr : f.docs.filterMap (rootEntry assets f.docs) = [.inl k]) : h.roots s = [(s, k)] := by
  obtain ⟨h1, h2, rfl, L, K⟩ := w.loaded ha
  rw [K.roots _ (Nat.le_refl _) L.count, L.roots, List.filter_flatMap]
  have key : ∀ ds : List (Int × Doc F), (∀ d ∈ ds, d ∈ f.docs) → ∀ ks : List Int,
      ds.filterMap (rootEntry assets f.docs) = ks.map Sum.inl →
      (ds.flatMap fun d => (objectsOf h2 h1.count d).filter (isRoot h2)) = ks.map fun k => (h1.count, k) := by
    intro ds
    induction ds with
    | nil =>
      intro _ ks hk
      cases ks with
      | nil => rfl
      | cons k ks => cases hk
    | cons d ds ih =>
      intro hm ks hk
      rw [List.flatMap_cons, loaded_root L w.nodup w.file d (hm d (by simp))]
      rw [List.filterMap_cons] at hk
      cases he : rootEntry assets f.docs d with
      | none =>
        rw [he] at hk
        exact ih (fun d hd => hm d (List.mem_cons_of_mem _ hd)) ks hk
      | some e =>
        rw [he] at hk
        cases ks with
        | nil => cases hk
        | cons k ks =>
          simp only [List.map_cons, List.cons.injEq] at hk
          rw [hk.1]
          simp only
          rw [ih (fun d hd => hm d (List.mem_cons_of_mem _ hd)) ks hk.2]
          rfl
  exact key f.docs (fun _ h => h) [k] hr

theorem namesInstance_iff (docs : List (Int × Doc F)) (c j : Int) : namesInstance docs c j = true ↔
    ∃ t i, (c, Doc.transform t) ∈ docs ∧ t.gameObject.fileID = 0 ∧ t.inst = some i ∧ i.fileID = j := by
  unfold namesInstance
  rw [List.any_eq_true]
  constructor
  · rintro ⟨⟨k, d⟩, h1, h2⟩
    simp only [Bool.and_eq_true, decide_eq_true_eq] at h2
    obtain ⟨rfl, h3⟩ := h2
    cases d <;> simp only [Bool.false_eq_true, Bool.and_eq_true, decide_eq_true_eq, Option.map_eq_some_iff] at h3
    obtain ⟨h4, i, h5, h6⟩ := h3
    exact ⟨_, i, h1, h4, h5, h6⟩
  · rintro ⟨t, i, h1, h2, h3, h4⟩
    exact ⟨_, h1, by simp [h2, h3, h4]⟩

/-- A tree of the loaded scene that shows a tree of a file. -/
def Gives (h : Heap F) (g : GTree F) (t : FTree F) : Prop :=
  g.In h ∧ ∃ t', FTree.Same t t' ∧ ∀ above, g.chains above = t'.chains above

theorem gives_all {h : Heap F} {gs : List (GTree F)} {ts : List (FTree F)} (w : List.Forall₂ (Gives h) gs ts) :
    AllIn h gs ∧ ∃ ts', List.Forall₂ FTree.Same ts ts' ∧
      List.Forall₂ (fun g t' => ∀ above, g.chains above = FTree.chains t' above) gs ts' := by
  induction w with
  | nil => exact ⟨by rw [AllIn]; trivial, [], .nil, .nil⟩
  | cons h1 _ ih =>
    obtain ⟨a, t', b, c⟩ := h1
    obtain ⟨d, ts', e, e'⟩ := ih
    exact ⟨by rw [AllIn]; exact ⟨a, d⟩, t' :: ts', .cons b e, .cons c e'⟩

theorem chains_all {gs : List (GTree F)} {ts : List (FTree F)}
    (w : List.Forall₂ (fun g t' => ∀ above, g.chains above = FTree.chains t' above) gs ts) (above : List (UNode F)) :
    chainsAll gs above = fchains ts above := by
  induction w with
  | nil => rw [chainsAll, fchains]
  | cons h1 _ ih => rw [chainsAll, fchains, h1 above, ih]

theorem chainsAll_append (a b : List (GTree F)) (above : List (UNode F)) :
    chainsAll (a ++ b) above = chainsAll a above ++ chainsAll b above := by
  induction a with
  | nil => rw [chainsAll]; rfl
  | cons t a ih => rw [List.cons_append, chainsAll, chainsAll, ih, List.append_assoc]

theorem allIn_append {h : Heap F} (a b : List (GTree F)) : AllIn h (a ++ b) ↔ AllIn h a ∧ AllIn h b := by
  induction a with
  | nil => rw [AllIn]; simp
  | cons t a ih => rw [List.cons_append, AllIn, AllIn, ih, and_assoc]

theorem allIn_iff {h : Heap F} (a : List (GTree F)) : AllIn h a ↔ ∀ g ∈ a, g.In h := by
  induction a with
  | nil => rw [AllIn]; simp
  | cons t a ih => rw [AllIn, ih]; simp

/-- The root of the instance `j` of the scene `s` has the transform `q`. -/
def RootOf (h : Heap F) (s : Nat) (j : Int) (p q : Ptr) : Prop :=
  h.elem (s, j) = some (.prefab q.1) ∧ s < q.1 ∧ h.roots q.1 = [p] ∧ p.1 = q.1 ∧ objectTransform h p = some q

theorem RootOf.unique {j : Int} {p q p' q' : Ptr} (a : RootOf h s j p q) (b : RootOf h s j p' q') : p' = p ∧ q' = q := by
  obtain ⟨a1, _, a3, a4, a5⟩ := a
  obtain ⟨b1, _, b3, b4, b5⟩ := b
  rw [a1] at b1
  have e : q.1 = q'.1 := by simpa using b1
  rw [← e, a3] at b3
  cases b3
  rw [a5] at b5
  exact ⟨rfl, by simpa using b5.symm⟩

theorem forall₂_left {α β : Type} {R : α → β → Prop} {l : List α} {l' : List β} (w : List.Forall₂ R l l') {a : α} (h : a ∈ l) :
    ∃ b ∈ l', R a b := by
  induction w with
  | nil => cases h
  | cons h1 _ ih =>
    rcases List.mem_cons.1 h with rfl | h
    · exact ⟨_, List.mem_cons_self, h1⟩
    · obtain ⟨b, h2, h3⟩ := ih h
      exact ⟨b, List.mem_cons_of_mem _ h2, h3⟩

theorem forall₂_right {α β : Type} {R : α → β → Prop} {l : List α} {l' : List β} (w : List.Forall₂ R l l') {b : β} (h : b ∈ l') :
    ∃ a ∈ l, R a b := by
  induction w with
  | nil => cases h
  | cons h1 _ ih =>
    rcases List.mem_cons.1 h with rfl | h
    · exact ⟨_, List.mem_cons_self, h1⟩
    · obtain ⟨a, h2, h3⟩ := ih h
      exact ⟨a, List.mem_cons_of_mem _ h2, h3⟩

theorem forall₂_refl_of {α : Type} {R : α → α → Prop} (hr : ∀ a, R a a) (l : List α) : List.Forall₂ R l l := by
  induction l with
  | nil => exact .nil
  | cons a l ih => exact .cons (hr a) ih

theorem forall₂_map {α β : Type} {g : β → α} {l : List α} {l' : List β} (w : List.Forall₂ (fun a b => a = g b) l l') :
    l = l'.map g := by
  induction w with
  | nil => rfl
  | cons h1 _ ih => rw [List.map_cons, h1, ih]

theorem further_nodup {h : Heap F} {s hi : Nat} {f : UFile F} (sh : Shows trunc assets h s hi f.mods f.docs)
    (nd : (f.docs.map Prod.fst).Nodup) {kt : Int} {cs : List Int} {gs : List (GTree F)}
    (w : List.Forall₂ (fun (e : Int × UFile F) g => RootOf h s e.1 g.obj g.tr) (furtherOf assets f kt cs) gs) :
    (gs.map GTree.tr).Nodup := by
  have hm : ∀ e ∈ furtherOf assets f kt cs, ∃ p, (e.1, Doc.prefab p) ∈ f.docs := by
    intro e he
    unfold furtherOf at he
    rw [List.mem_filterMap] at he
    obtain ⟨⟨j', d⟩, hd, he⟩ := he
    cases d <;> simp only [reduceCtorEq] at he
    rename_i p
    split at he
    · rw [Option.map_eq_some_iff] at he
      obtain ⟨y, hy, he⟩ := he
      cases he
      exact ⟨p, hd⟩
    · cases he
  have hn : ((furtherOf assets f kt cs).map Prod.fst).Nodup := by
    refine List.Nodup.sublist ?_ nd
    unfold furtherOf
    rw [List.map_filterMap]
    have : ∀ l : List (Int × Doc F), List.Sublist (l.filterMap fun d => Option.map Prod.fst (match d.2 with
        | .prefab p =>
          if p.parent.map Ref.fileID = some kt ∧ (cs.any fun c => namesInstance f.docs c d.1) = false then
            (prefabDocs assets p).map fun g => (d.1, (⟨g.1, p.mods, g.2⟩ : UFile F))
          else none
        | _ => none)) (l.map Prod.fst) := by
      intro l
      induction l with
      | nil => exact .slnil
      | cons d l ih =>
        obtain ⟨k, d⟩ := d
        rw [List.filterMap_cons, List.map_cons]
        split
        · exact ih.cons _
        · rename_i b hb
          have : b = k := by
            cases d <;> simp only [Option.map_none, reduceCtorEq] at hb
            split at hb
            · rw [Option.map_map, Option.map_eq_some_iff] at hb
              obtain ⟨_, _, rfl⟩ := hb
              rfl
            · cases hb
          rw [this]
          exact ih.cons_cons _
    exact this f.docs
  generalize furtherOf assets f kt cs = fs at w hm hn
  induction w with
  | nil => exact List.nodup_nil
  | cons h1 w' ih =>
    rename_i e g fs gs
    rw [List.map_cons, List.nodup_cons] at hn ⊢
    refine ⟨?_, ih (fun e he => hm e (List.mem_cons_of_mem _ he)) hn.2⟩
    intro hc
    obtain ⟨g', hg', he⟩ := List.mem_map.1 hc
    obtain ⟨e', he', h2⟩ := forall₂_right w' hg'
    obtain ⟨p, hp⟩ := hm e List.mem_cons_self
    obtain ⟨p', hp'⟩ := hm e' (List.mem_cons_of_mem _ he')
    have := h2.1
    rw [he] at this
    have := shows_inj sh e.1 e'.1 p p' hp hp' _ h1.1 this
    exact hn.1 (List.mem_map.2 ⟨e', he', this.symm⟩)

mutual

theorem tree_found (ha : ∀ g ds, assets g = some ds → (ds.map Prod.fst).Nodup) {h : Heap F} : ∀ (tr : FTree F) (s : Nat) (f : UFile F)
    (k kt : Int), Here trunc assets h s f → tr.At trunc assets f k kt → ∃ g, Gives h g tr ∧ g.obj = (s, k) ∧ g.tr = (s, kt)
  | .node x a b, s, f, k, kt, w, hat => by
    rw [FTree.At] at hat
    obtain ⟨o, t, hx, hl, hf⟩ := hat
    obtain ⟨ga, l1, l2, l3, l4⟩ := listed_found ha a s f t.children t.inst w hx.tinst hl
    obtain ⟨gb, r1, r2⟩ := further_found ha b s f _ w (by
      intro j f' hj
      unfold furtherOf at hj
      rw [List.mem_filterMap] at hj
      obtain ⟨⟨j', d⟩, hd, he⟩ := hj
      cases d <;> simp only [reduceCtorEq] at he
      rename_i p
      split at he
      · rw [Option.map_eq_some_iff] at he
        obtain ⟨y, hy, he⟩ := he
        cases he
        exact ⟨p, hd, hy, rfl⟩
      · cases he) hf
    obtain ⟨y, c1, c2, c3, c4, c5⟩ := w.children ha kt t hx.transform
    obtain ⟨hi, sh⟩ := w.shows
    rw [l2] at c1 c3 c5
    have hadd : ∀ j p par q, (j, Doc.prefab p) ∈ f.docs → p.parent = some par → (∃ r, RootOf h s j r q) →
        AddedBy h s (j, .prefab p) ({ par with guid := h.guid s }, q) := by
      rintro j p par q hj hp ⟨r, e1, e2, e3, e4, e5⟩
      have : ∃ o c, h.object r = some o ∧ c ∈ o.components ∧ (findTransform h q.1 c o.inst).isSome = true := by
        unfold objectTransform at e5
        cases ho : h.object r with
        | none => rw [ho] at e5; cases e5
        | some o =>
          rw [ho] at e5
          obtain ⟨c, hc, hf⟩ := List.exists_of_findSome?_eq_some e5
          exact ⟨o, c, rfl, hc, by rw [← e4, hf]; rfl⟩
      obtain ⟨o, c, k1, k2, k3⟩ := this
      exact ⟨p, q.1, r, q, par, o, c, rfl, e1, by rw [e3]; rfl, e5, hp, k1, k2, k3, rfl⟩
    have key : y.Perm (gb.map GTree.tr) := by
      rw [List.perm_ext_iff_of_nodup c2 (further_nodup sh w.nodup r2)]
      intro c
      constructor
      · intro hc
        obtain ⟨⟨j, d⟩, hd, e, ⟨p, s', root, tr', par, o', c', k1, k2, k3, k4, k5, k6, k7, k8, k9⟩, e2, e3⟩ := c4 c hc
        simp only at k1
        subst k1
        subst k9
        simp only at e2 e3
        subst e2
        rw [w.parent j p par _ hd k5] at e3
        have hkt : par.fileID = kt := by simpa using e3.2.symm
        by_cases hn : ((t.children.map Ref.fileID).any fun c => namesInstance f.docs c j) = true
        · rw [List.any_eq_true] at hn
          obtain ⟨c0, hc0, hn⟩ := hn
          obtain ⟨r, q, hrq, hm⟩ := l4 c0 hc0 j hn
          exfalso
          apply c3 _ hc
          have hr := hrq
          obtain ⟨e1, _, e4, e5, e6⟩ := hr
          rw [k2] at e1
          have es : s' = q.1 := by simpa using e1
          rw [es, e4] at k3
          cases k3
          rw [k4] at e6
          cases e6
          exact hm
        · cases hp : prefabDocs assets p with
          | none =>
            cases sh with
            | mk _ _ _ _ F' g range rootsIn own absent missing place sub apart =>
              rw [missing j p hd hp] at k2
              cases k2
          | some y =>
            have hm : (j, (⟨y.1, p.mods, y.2⟩ : UFile F)) ∈ furtherOf assets f kt (t.children.map Ref.fileID) := by
              unfold furtherOf
              rw [List.mem_filterMap]
              refine ⟨_, hd, ?_⟩
              simp only
              rw [if_pos ⟨by rw [k5, ← hkt]; rfl, by simpa using hn⟩, hp]
              rfl
            obtain ⟨g, hg, hrg⟩ := forall₂_left r2 hm
            obtain ⟨e1, _, e4, e5, e6⟩ := hrg
            rw [k2] at e1
            have es : s' = g.tr.1 := by simpa using e1
            rw [es, e4] at k3
            cases k3
            rw [k4] at e6
            cases e6
            exact List.mem_map.2 ⟨g, hg, rfl⟩
      · intro hc
        obtain ⟨g, hg, rfl⟩ := List.mem_map.1 hc
        obtain ⟨⟨j, f'⟩, hj, hrg⟩ := forall₂_right r2 hg
        unfold furtherOf at hj
        rw [List.mem_filterMap] at hj
        obtain ⟨⟨j', d⟩, hd, he⟩ := hj
        cases d <;> simp only [reduceCtorEq] at he
        rename_i p
        split at he
        · rename_i hcond
          rw [Option.map_eq_some_iff] at he
          obtain ⟨y', hy, he⟩ := he
          cases he
          obtain ⟨hpar, hun⟩ := hcond
          rw [Option.map_eq_some_iff] at hpar
          obtain ⟨par, hpar, hkt⟩ := hpar
          have h0 : kt ≠ 0 := by
            rintro rfl
            exact w.file.zero (List.mem_map.2 ⟨_, hx.transform, rfl⟩)
          rcases c5 _ hd _ (hadd j p par g.tr hd hpar ⟨_, hrg⟩)
            ((w.parent j p par _ hd hpar _).2 ⟨by rw [hkt]; exact h0, by rw [hkt]⟩) with hin | hin
          · exfalso
            obtain ⟨g0, hg0, e0⟩ := List.mem_map.1 hin
            simp only at e0
            rcases l3 g0 hg0 with h1 | ⟨c0, hc0, j0, p0, hj0, hn0, he0⟩
            · have := hrg.2.1
              rw [e0] at h1
              omega
            · rw [e0] at he0
              have := shows_inj sh j0 j p0 p hj0 hd _ he0 hrg.1
              subst this
              rw [List.any_eq_false] at hun
              exact hun c0 hc0 hn0
          · exact hin
        · cases he
    obtain ⟨gb', q1, q2⟩ := List.perm_comp_forall₂ key (r := fun (p : Ptr) (g : GTree F) => p = g.tr)
      (by rw [List.forall₂_map_left_iff]; exact forall₂_refl_of (R := fun c b : GTree F => c.tr = b.tr) (fun _ => rfl) gb)
    have hy : y = gb'.map GTree.tr := by
      clear q2 key
      revert q1
      exact forall₂_map
    obtain ⟨n1, ta, n2, n3⟩ := gives_all l1
    obtain ⟨m1, tb, m2, m3⟩ := gives_all r1
    obtain ⟨tb', q3, q4⟩ := List.perm_comp_forall₂ q2 m3
    refine ⟨.node (s, k) (s, kt) x (ga ++ gb'), ⟨?_, .node x ta tb', .node x a ta b tb tb' n2 m2 q4.symm, ?_⟩, rfl, rfl⟩
    · rw [GTree.In]
      refine ⟨w.node k kt o t x hx, by rw [c1, hy, List.map_append], (allIn_append _ _).2 ⟨n1, ?_⟩⟩
      rw [allIn_iff] at m1 ⊢
      exact fun g hg => m1 g (q2.mem_iff.1 hg)
    · intro above
      rw [GTree.chains, FTree.chains, chainsAll_append, chains_all n3, chains_all q3]

theorem listed_found (ha : ∀ g ds, assets g = some ds → (ds.map Prod.fst).Nodup) {h : Heap F} : ∀ (ts : List (FTree F)) (s : Nat)
    (f : UFile F) (rs : List Ref) (inst : Option Ref), Here trunc assets h s f → validRef inst = false →
    ListedAt trunc assets f (rs.map Ref.fileID) ts → ∃ gs : List (GTree F), List.Forall₂ (Gives h) gs ts ∧
      (rs.filterMap fun c => sceneTransform h s c inst) = gs.map GTree.tr ∧
      (∀ g ∈ gs, g.tr.1 = s ∨ ∃ c ∈ rs.map Ref.fileID, ∃ j p, (j, Doc.prefab p) ∈ f.docs ∧ namesInstance f.docs c j = true ∧
        h.elem (s, j) = some (.prefab g.tr.1)) ∧
      (∀ c ∈ rs.map Ref.fileID, ∀ j, namesInstance f.docs c j = true → ∃ r q, RootOf h s j r q ∧ q ∈ gs.map GTree.tr)
  | [], s, f, rs, inst, w, hv, hl => by
    rw [ListedAt] at hl
    rw [List.map_eq_nil_iff] at hl
    subst hl
    exact ⟨[], .nil, rfl, by simp, by simp⟩
  | t :: ts, s, f, rs, inst, w, hv, hl => by
    rw [ListedAt] at hl
    obtain ⟨c, cs, hc, hor, hl⟩ := hl
    cases rs with
    | nil => cases hc
    | cons r rs =>
      simp only [List.map_cons, List.cons.injEq] at hc
      obtain ⟨rfl, rfl⟩ := hc
      obtain ⟨gs, l1, l2, l3, l4⟩ := listed_found ha ts s f rs inst w hv hl
      rcases hor with ⟨k, hat⟩ | ⟨j, kt', k', f', hp, hin, hr, hat⟩
      · obtain ⟨g, hg, hg1, hg2⟩ := tree_found ha t s f k r.fileID w hat
        obtain ⟨x, a, b⟩ := t
        rw [FTree.At] at hat
        obtain ⟨o, tr, hx, _⟩ := hat
        refine ⟨g :: gs, .cons hg l1, ?_, ?_, ?_⟩
        · rw [List.filterMap_cons, w.ownChild k r o tr x hx inst hv, l2, List.map_cons, hg2]
        · intro g' hg'
          rcases List.mem_cons.1 hg' with rfl | hg'
          · left
            rw [hg2]
          · rcases l3 g' hg' with h1 | ⟨c, h1, h2⟩
            · exact Or.inl h1
            · exact Or.inr ⟨c, List.mem_cons_of_mem _ h1, h2⟩
        · intro c hc j hn
          rcases List.mem_cons.1 hc with rfl | hc
          · exfalso
            obtain ⟨u, i, n1, n2, _⟩ := (namesInstance_iff _ _ _).1 hn
            have := doc_unique w.nodup n1 hx.transform
            cases this
            have hb := hx.back
            rw [n2] at hb
            apply w.file.zero
            rw [hb]
            exact List.mem_map.2 ⟨_, hx.object, rfl⟩
          · obtain ⟨r', q, e1, e2⟩ := l4 c hc j hn
            exact ⟨r', q, e1, List.mem_cons_of_mem _ e2⟩
      · obtain ⟨s', e1, e2, w'⟩ := w.sub ha j f' hin hr.1
        obtain ⟨g, hg, hg1, hg2⟩ := tree_found ha t s' f' k' kt' w' hat
        obtain ⟨x, a, b⟩ := t
        rw [FTree.At] at hat
        obtain ⟨o, tr, hx, _⟩ := hat
        obtain ⟨p, hjp, _⟩ := id hin
        have hroot : RootOf h s j (s', k') (s', kt') :=
          ⟨e1, e2, w'.root ha k' hr.2, rfl, (w'.node k' kt' o tr x hx).found⟩
        refine ⟨g :: gs, .cons hg l1, ?_, ?_, ?_⟩
        · rw [List.filterMap_cons, w.placeholder ha r j kt' hp s' f' (List.mem_map.2 ⟨_, hjp, rfl⟩) e1 w'
            ((hasTransform_iff _ _).2 ⟨tr, hx.transform⟩) inst hv, l2, List.map_cons, hg2]
        · intro g' hg'
          rcases List.mem_cons.1 hg' with rfl | hg'
          · right
            obtain ⟨ph, src, i, p1, p2, p3, p4, p5, p6, p7, p8⟩ := hp
            refine ⟨r.fileID, List.mem_cons_self, j, p, hjp, (namesInstance_iff _ _ _).2 ⟨ph, i, p1, p2, p7, p8⟩, ?_⟩
            rw [hg2]
            exact e1
          · rcases l3 g' hg' with h1 | ⟨c, h1, h2⟩
            · exact Or.inl h1
            · exact Or.inr ⟨c, List.mem_cons_of_mem _ h1, h2⟩
        · intro c hc j' hn
          rcases List.mem_cons.1 hc with rfl | hc
          · obtain ⟨ph, src, i, p1, p2, p3, p4, p5, p6, p7, p8⟩ := hp
            obtain ⟨u, i', n1, n2, n3, n4⟩ := (namesInstance_iff _ _ _).1 hn
            have := doc_unique w.nodup n1 p1
            cases this
            rw [p7] at n3
            cases n3
            have : j' = j := n4.symm.trans p8
            subst this
            exact ⟨_, _, hroot, by rw [List.map_cons, hg2]; exact List.mem_cons_self⟩
          · obtain ⟨r', q, e3, e4⟩ := l4 c hc j' hn
            exact ⟨r', q, e3, List.mem_cons_of_mem _ e4⟩

theorem further_found (ha : ∀ g ds, assets g = some ds → (ds.map Prod.fst).Nodup) {h : Heap F} : ∀ (ts : List (FTree F)) (s : Nat)
    (f : UFile F) (fs : List (Int × UFile F)), Here trunc assets h s f → (∀ j f', (j, f') ∈ fs → InstanceAt assets f j f') →
    FurtherAt trunc assets fs ts → ∃ gs : List (GTree F), List.Forall₂ (Gives h) gs ts ∧
      List.Forall₂ (fun e g => RootOf h s e.1 g.obj g.tr) fs gs
  | [], s, f, fs, w, hi, hf => by
    rw [FurtherAt] at hf
    subst hf
    exact ⟨[], .nil, .nil⟩
  | t :: ts, s, f, fs, w, hi, hf => by
    rw [FurtherAt] at hf
    obtain ⟨j, f', fs', rfl, ⟨k', kt', hr, hat⟩, hf⟩ := hf
    obtain ⟨gs, l1, l2⟩ := further_found ha ts s f fs' w (fun j f' hj => hi j f' (List.mem_cons_of_mem _ hj)) hf
    obtain ⟨s', e1, e2, w'⟩ := w.sub ha j f' (hi j f' List.mem_cons_self) hr.1
    obtain ⟨g, hg, hg1, hg2⟩ := tree_found ha t s' f' k' kt' w' hat
    obtain ⟨x, a, b⟩ := t
    rw [FTree.At] at hat
    obtain ⟨o, tr, hx, _⟩ := hat
    refine ⟨g :: gs, .cons hg l1, .cons ?_ l2⟩
    rw [hg1, hg2]
    exact ⟨e1, e2, w'.root ha k' hr.2, rfl, (w'.node k' kt' o tr x hx).found⟩

end

end

end Verif.Conv
