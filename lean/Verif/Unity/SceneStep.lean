import Verif.Unity.SceneLemmas

/-! What the steps of the loading of a Unity scene change. -/

namespace Verif.Unity

open Verif.Geom

variable {F : Type}

/-- Only elements of the scenes from `m` on are changed, and not their links. -/
structure Same (h h' : Heap F) (m : Nat) : Prop where
  count : h'.count = h.count
  guid : h'.guid = h.guid
  roots : h'.roots = h.roots
  below : ∀ p : Ptr, p.1 < m → h'.elem p = h.elem p
  links : ∀ p, LinksAt h h' p

theorem Same.refl (h : Heap F) (m : Nat) : Same h h m := ⟨rfl, rfl, rfl, fun _ _ => rfl, fun _ => .of_eq rfl⟩

theorem Same.trans {h h' h'' : Heap F} {m : Nat} (a : Same h h' m) (b : Same h' h'' m) : Same h h'' m :=
  ⟨b.count.trans a.count, b.guid.trans a.guid, b.roots.trans a.roots, fun p hp => (b.below p hp).trans (a.below p hp),
    fun p => (a.links p).trans (b.links p)⟩

theorem Same.mono {h h' : Heap F} {m m' : Nat} (a : Same h h' m) (hm : m' ≤ m) : Same h h' m' :=
  ⟨a.count, a.guid, a.roots, fun p hp => a.below p (by omega), a.links⟩

theorem LinksAt.prefab {h h' : Heap F} {p : Ptr} (l : LinksAt h h' p) (s : Nat) :
    h'.elem p = some (.prefab s) ↔ h.elem p = some (.prefab s) := by
  unfold LinksAt at l
  cases e : h.elem p <;> cases e' : h'.elem p <;> rw [e, e'] at l <;> simp only at l
  rename_i a b
  cases a <;> cases b <;> simp only [Elem.Links] at l <;> simp_all

theorem Same.ok {h h' : Heap F} {m : Nat} (a : Same h h' m) (ok : h.Ok) : h'.Ok := by
  refine ⟨?_, ?_, ?_⟩
  · intro p hp
    have := (a.links p).isSome
    rw [ok.fresh p (by rw [← a.count]; exact hp)] at this
    simpa using this
  · intro n id s hs
    rw [a.count]
    exact ok.prefab n id s (((a.links (n, id)).prefab s).1 hs)
  · intro s r hr
    rw [a.count]
    rw [a.roots] at hr
    exact ok.roots s r hr

theorem Same.from {h h' : Heap F} {m : Nat} (a : Same h h' m) (s : Nat) : LinksFrom h h' s :=
  ⟨fun i _ _ => by rw [a.guid], fun p _ _ => a.links p⟩

/-- One element is replaced by one with the same links. -/
theorem same_update (h : Heap F) (p : Ptr) (e e' : Elem F) (he : h.elem p = some e) (l : e.Links e') (m : Nat) (hm : m ≤ p.1) :
    Same h { h with elem := Function.update h.elem p (some e') } m := by
  refine ⟨rfl, rfl, rfl, ?_, ?_⟩
  · intro q hq
    exact Function.update_of_ne (by rintro rfl; omega) _ _
  · intro q
    by_cases hq : q = p
    · subst hq
      exact .of_some he (by simp) l
    · exact .of_eq (Function.update_of_ne hq _ _)

theorem transform_elem (h : Heap F) (p : Ptr) (t : Transform F) : h.transform p = some t ↔ h.elem p = some (.transform t) := by
  unfold Heap.transform
  split <;> simp_all

theorem object_elem (h : Heap F) (p : Ptr) (o : GameObject) : h.object p = some o ↔ h.elem p = some (.object o) := by
  unfold Heap.object
  split <;> simp_all

/-! ### The root of an instance -/

theorem setFather_same (h : Heap F) (p : Ptr) (r : Ref) (m : Nat) (hm : m ≤ p.1) : Same h (setFather h p r) m := by
  unfold setFather
  split
  · rename_i t ht
    exact same_update h p (.transform t) (.transform { t with father := r }) ((transform_elem h p t).1 ht)
      ⟨rfl, rfl, rfl, rfl⟩ m hm
  · exact Same.refl _ _

theorem setFather_elem (h : Heap F) (p : Ptr) (r : Ref) (q : Ptr) (hq : q ≠ p) : (setFather h p r).elem q = h.elem q := by
  unfold setFather
  split
  · exact Function.update_of_ne hq _ _
  · rfl

theorem setFather_at (h : Heap F) (p : Ptr) (r : Ref) (t : Transform F) (ht : h.transform p = some t) :
    (setFather h p r).elem p = some (.transform { t with father := r }) := by
  unfold setFather
  rw [ht]
  simp

theorem Elem.like_at {h h' : Heap F} (p : Ptr) (e : Elem F) (he : h.elem p = some e)
    (hx : h'.elem p = h.elem p ∨ ∃ t r, e = .transform t ∧ h'.elem p = some (.transform { t with father := r })) :
    ∃ e', h'.elem p = some e' ∧ e.Like e' := by
  rcases hx with hx | ⟨t, r, rfl, hx⟩
  · exact ⟨e, by rw [hx, he], Elem.Like.refl e⟩
  · exact ⟨_, hx, r, t.added, rfl⟩

/-- The father of an instance and its root. -/
structure PlaceOk (n s : Nat) (parent : Option Ref) (st st' : Loading F) : Prop where
  same : Same st.heap st'.heap s
  like : ∀ p e, st.heap.elem p = some e → ∃ e', st'.heap.elem p = some e' ∧ e.Like e'
  kept : ∀ p t, st.heap.transform p = some t → ∃ f, st'.heap.transform p = some { t with father := f }
  objects : st'.objects = st.objects ++ (st.heap.roots s).head?.toList
  added : ∀ e, e ∈ st'.added ↔ e ∈ st.added ∨ ∃ root tr par o c, (st.heap.roots s).head? = some root ∧
    objectTransform st.heap root = some tr ∧ parent = some par ∧ st.heap.object root = some o ∧ c ∈ o.components ∧
    (findTransform st.heap s c o.inst).isSome = true ∧ e = ({ par with guid := st.heap.guid n }, tr)
  father : ∀ root tr, (st.heap.roots s).head? = some root → objectTransform st.heap root = some tr →
    ∃ par t, parent = some par ∧ st'.heap.transform tr = some t ∧ t.father = { par with guid := st.heap.guid n }

theorem placeRoot_ok (n s : Nat) (parent : Option Ref) (st st' : Loading F) (ok : st.heap.Ok) (hs : s < st.heap.count)
    (h : placeRoot n s parent st = some st') : PlaceOk n s parent st st' := by
  unfold placeRoot at h
  cases hr : (st.heap.roots s).head? with
  | none =>
    rw [hr] at h
    cases h
    exact ⟨Same.refl _ _, fun p e he => ⟨e, he, Elem.Like.refl e⟩, fun p t ht => ⟨_, ht⟩, by simp [hr], by simp [hr], by simp [hr]⟩
  | some root =>
    rw [hr] at h
    simp only at h
    have hroot := ok.roots s root (List.mem_of_mem_head? hr)
    cases ht : objectTransform st.heap root with
    | none =>
      rw [ht] at h
      cases h
      exact ⟨Same.refl _ _, fun p e he => ⟨e, he, Elem.Like.refl e⟩, fun p t ht => ⟨_, ht⟩, by simp [hr], by simp [hr, ht],
        fun root' tr' h1 h2 => by
          cases hr.symm.trans h1
          cases ht.symm.trans h2⟩
    | some tr =>
      rw [ht] at h
      simp only at h
      have htr := objectTransform_scene st.heap ok root tr ht
      cases parent with
      | none => cases h
      | some par =>
        simp only [Option.some.injEq] at h
        have same : Same st.heap (setFather st.heap tr { par with guid := st.heap.guid n }) s :=
          setFather_same _ _ _ _ (Nat.le_trans hroot.1 htr.1)
        obtain ⟨t, htt⟩ := Option.isSome_iff_exists.1 htr.2
        have hat := setFather_at st.heap tr { par with guid := st.heap.guid n } t htt
        subst h
        refine ⟨same, ?_, ?_, by simp [hr], ?_, ?_⟩
        · intro p e he
          apply Elem.like_at p e he
          by_cases hp : p = tr
          · subst hp
            rw [(transform_elem _ _ _).1 htt] at he
            cases he
            exact Or.inr ⟨t, _, rfl, hat⟩
          · exact Or.inl (setFather_elem _ _ _ _ hp)
        · intro p u hu
          by_cases hp : p = tr
          · subst hp
            cases htt.symm.trans hu
            exact ⟨_, (transform_elem _ _ _).2 hat⟩
          · refine ⟨u.father, (transform_elem _ _ _).2 ?_⟩
            rw [setFather_elem _ _ _ _ hp]
            exact (transform_elem _ _ _).1 hu
        · intro e
          simp only [List.mem_append, List.mem_map]
          refine or_congr_right ?_
          constructor
          · rintro ⟨c, hc, rfl⟩
            cases ho : st.heap.object root with
            | none => rw [ho] at hc; cases hc
            | some o =>
              rw [ho] at hc
              simp only [List.mem_filter] at hc
              rw [(same.from s).findTransform ok hs] at hc
              exact ⟨root, tr, par, o, c, hr, ht, rfl, ho, hc.1, hc.2, rfl⟩
          · rintro ⟨root', tr', par', o, c, h1, h2, h3, h4, h5, h6, rfl⟩
            cases hr.symm.trans h1
            cases ht.symm.trans h2
            cases h3
            refine ⟨c, ?_, rfl⟩
            rw [h4]
            simp only [List.mem_filter]
            rw [(same.from s).findTransform ok hs]
            exact ⟨h5, h6⟩
        · intro root' tr' h1 h2
          cases hr.symm.trans h1
          cases ht.symm.trans h2
          exact ⟨par, _, rfl, (transform_elem _ _ _).2 hat, rfl⟩

/-! ### Modifications -/

/-- The modifications of the element with an id. -/
def modsFor (mods : List (Modification F)) (k : Int) : List (Modification F) :=
  mods.filter fun m => match m.target with
    | some r => decide (r.fileID = k) && r.valid
    | none => false

theorem modifyAll_spec [Field F] (trunc : F → Int) (s : Nat) (mods : List (Modification F)) : ∀ (h : Heap F),
    Same h (modifyAll trunc s mods h) s ∧ (∀ p : Ptr, p.1 ≠ s → (modifyAll trunc s mods h).elem p = h.elem p) ∧
    ∀ k, (modifyAll trunc s mods h).elem (s, k) =
      (h.elem (s, k)).map fun e => (modsFor mods k).foldl (fun e m => modify trunc m e) e := by
  induction mods with
  | nil =>
    intro h
    refine ⟨Same.refl _ _, fun _ _ => rfl, fun k => ?_⟩
    show h.elem (s, k) = _
    cases h.elem (s, k) <;> rfl
  | cons m ms ih =>
    intro h
    have key : ∀ (h1 : Heap F), modifyAll trunc s (m :: ms) h = modifyAll trunc s ms h1 → Same h h1 s →
        (∀ p : Ptr, p.1 ≠ s → h1.elem p = h.elem p) →
        (∀ k, h1.elem (s, k) = (h.elem (s, k)).map fun e => (modsFor [m] k).foldl (fun e m => modify trunc m e) e) →
        Same h (modifyAll trunc s (m :: ms) h) s ∧
        (∀ p : Ptr, p.1 ≠ s → (modifyAll trunc s (m :: ms) h).elem p = h.elem p) ∧
        ∀ k, (modifyAll trunc s (m :: ms) h).elem (s, k) =
          (h.elem (s, k)).map fun e => (modsFor (m :: ms) k).foldl (fun e m => modify trunc m e) e := by
      intro h1 e hs hp hk
      rw [e]
      obtain ⟨i1, i2, i3⟩ := ih h1
      refine ⟨hs.trans i1, fun p hp' => (i2 p hp').trans (hp p hp'), fun k => ?_⟩
      rw [i3, hk, Option.map_map]
      have : modsFor (m :: ms) k = modsFor [m] k ++ modsFor ms k := by
        unfold modsFor
        rw [← List.filter_append]
        rfl
      rw [this]
      simp [List.foldl_append, Function.comp_def]
    have idle : (∀ k, modsFor [m] k = [] ∨ h.elem (s, k) = none) → ∀ k, h.elem (s, k) =
        (h.elem (s, k)).map fun e => (modsFor [m] k).foldl (fun e m => modify trunc m e) e := by
      intro hk k
      rcases hk k with e | e
      · rw [e]
        cases h.elem (s, k) <;> rfl
      · rw [e]
        rfl
    cases ht : m.target with
    | none =>
      exact key h (by unfold modifyAll; rw [List.foldl_cons, ht]) (Same.refl _ _) (fun _ _ => rfl)
        (idle fun k => Or.inl (by unfold modsFor; simp [ht]))
    | some r =>
      cases he : getElement h s r none with
      | none =>
        refine key h (by unfold modifyAll; rw [List.foldl_cons, ht]; simp only [he]) (Same.refl _ _) (fun _ _ => rfl)
          (idle fun k => ?_)
        by_cases hv : r.valid = true
        · by_cases hk : r.fileID = k
          · right
            subst hk
            unfold getElement at he
            rw [if_neg (by simp [hv]), if_neg (by simp [validRef])] at he
            split at he
            · cases he
            · rename_i hn
              simpa using hn
          · exact Or.inl (by unfold modsFor; simp [ht, hk])
        · exact Or.inl (by unfold modsFor; simp [ht, hv])
      | some p =>
        have hp : p = (s, r.fileID) ∧ r.valid = true ∧ (h.elem p).isSome = true := by
          unfold getElement at he
          split at he
          · cases he
          · rename_i hv
            rw [if_neg (by simp [validRef])] at he
            split at he
            · rename_i hn
              cases he
              exact ⟨rfl, by simpa using hv, hn⟩
            · cases he
        obtain ⟨rfl, hv, hsome⟩ := hp
        obtain ⟨e, hee⟩ := Option.isSome_iff_exists.1 hsome
        refine key { h with elem := Function.update h.elem (s, r.fileID) ((h.elem (s, r.fileID)).map (modify trunc m)) }
          (by unfold modifyAll; rw [List.foldl_cons, ht]; simp only [he]) ?_ ?_ ?_
        · rw [hee]
          exact same_update h _ e _ hee (modify_links trunc m e) s (Nat.le_refl _)
        · intro q hq
          exact Function.update_of_ne (by rintro rfl; exact hq rfl) _ _
        · intro k
          by_cases hk : k = r.fileID
          · subst hk
            have e1 : modsFor [m] r.fileID = [m] := by unfold modsFor; simp [ht, hv]
            rw [e1]
            show Function.update h.elem (s, r.fileID) _ (s, r.fileID) = _
            rw [Function.update_self]
            rfl
          · have e1 : modsFor [m] k = [] := by
              unfold modsFor
              simp [ht]
              exact fun hc => absurd hc.symm hk
            rw [e1]
            show Function.update h.elem (s, r.fileID) _ (s, k) = _
            rw [Function.update_of_ne (by simpa using hk)]
            cases h.elem (s, k) <;> rfl

/-! ### Children of the instances -/

/-- Only the kept children are changed, in the scenes from `m` on. -/
structure Near (h h' : Heap F) (m : Nat) : Prop where
  same : Same h h' m
  near : ∀ p e, h.elem p = some e → ∃ e', h'.elem p = some e' ∧ e.Near e'

theorem Near.refl (h : Heap F) (m : Nat) : Near h h m := ⟨Same.refl h m, fun _ e he => ⟨e, he, Elem.Near.refl e⟩⟩

theorem Near.trans {h h' h'' : Heap F} {m : Nat} (a : Near h h' m) (b : Near h' h'' m) : Near h h'' m := by
  refine ⟨a.same.trans b.same, fun p e he => ?_⟩
  obtain ⟨e1, k1, k2⟩ := a.near p e he
  obtain ⟨e2, k3, k4⟩ := b.near p e1 k1
  exact ⟨e2, k3, k2.trans k4⟩

theorem Near.transform {h h' : Heap F} {m : Nat} (a : Near h h' m) (p : Ptr) (t : Transform F)
    (ht : h.transform p = some t) : ∃ x, h'.transform p = some { t with added := x } := by
  obtain ⟨e, k1, k2⟩ := a.near p _ ((transform_elem _ _ _).1 ht)
  cases e <;> simp only [Elem.Near, reduceCtorEq] at k2
  obtain ⟨x, rfl⟩ := k2
  exact ⟨x, (transform_elem _ _ _).2 k1⟩

/-- A child is appended unless it is there. -/
def insertEnd (l : List Ptr) (c : Ptr) : List Ptr := if c ∈ l then l else l ++ [c]

theorem addChild_eq (h : Heap F) (p c : Ptr) (t : Transform F) (ht : h.transform p = some t) :
    addChild h p c = { h with
      elem := Function.update h.elem p (some (.transform { t with added := insertEnd (getChildren h p) c })) } := by
  unfold addChild
  rw [ht]
  rfl

theorem addChild_near (h : Heap F) (p c : Ptr) (m : Nat) (hm : m ≤ p.1) : Near h (addChild h p c) m := by
  cases ht : h.transform p with
  | none =>
    have : addChild h p c = h := by unfold addChild; rw [ht]
    rw [this]
    exact Near.refl _ _
  | some t =>
    rw [addChild_eq h p c t ht]
    have he := (transform_elem h p t).1 ht
    refine ⟨same_update h p (.transform t) (.transform { t with added := insertEnd (getChildren h p) c }) he
      ⟨rfl, rfl, rfl, rfl⟩ m hm, ?_⟩
    intro q e hq
    by_cases hqp : q = p
    · subst hqp
      rw [he] at hq
      cases hq
      exact ⟨_, Function.update_self _ _ _, _, rfl⟩
    · exact ⟨e, by simp only [Function.update_of_ne hqp]; exact hq, Elem.Near.refl e⟩

theorem addInstance_near (n : Nat) (h : Heap F) (ok : h.Ok) (e : Ref × Ptr) : Near h (addInstance n h e) n := by
  unfold addInstance
  split
  · rename_i p hp
    exact addChild_near h p _ n (sceneTransform_scene h ok _ _ _ _ hp).1
  · exact Near.refl _ _

theorem addChild_children (h : Heap F) (p c q : Ptr) (ok : h.Ok) (ht : (h.transform p).isSome = true) :
    getChildren (addChild h p c) q = if q = p then insertEnd (getChildren h p) c else getChildren h q := by
  obtain ⟨t, ht⟩ := Option.isSome_iff_exists.1 ht
  have hn := (addChild_near h p c p.1 (Nat.le_refl _)).same
  have ea := addChild_eq h p c t ht
  by_cases hq : q = p
  · subst hq
    rw [if_pos rfl]
    have : (addChild h q c).transform q = some { t with added := insertEnd (getChildren h q) c } := by
      rw [transform_elem, ea]
      simp
    rw [getChildren, this]
    have hne : insertEnd (getChildren h q) c ≠ [] := by
      unfold insertEnd
      split
      · rename_i hm
        intro hc
        rw [hc] at hm
        cases hm
      · simp
    simp only [hne, ne_eq, not_false_eq_true, if_true]
  · rw [if_neg hq]
    have : (addChild h p c).transform q = h.transform q := by
      unfold Heap.transform
      rw [ea]
      simp only [Function.update_of_ne hq]
    unfold getChildren
    rw [this]
    cases hqt : h.transform q with
    | none => rfl
    | some u =>
      simp only
      split
      · rfl
      · apply congrFun
        apply congrArg
        funext r
        exact (hn.from q.1).sceneTransform ok (transform_count h ok q (by rw [hqt]; rfl)) _ _

theorem addInstances_near (n : Nat) (es : List (Ref × Ptr)) : ∀ (h : Heap F), h.Ok → Near h (es.foldl (addInstance n) h) n := by
  induction es with
  | nil => exact fun h _ => Near.refl h n
  | cons e es ih =>
    intro h ok
    have h1 := addInstance_near n h ok e
    exact h1.trans (ih _ (h1.same.ok ok))

/-- The children after the instances are added. -/
theorem addInstances_children (n : Nat) (es : List (Ref × Ptr)) : ∀ (h : Heap F), h.Ok → n < h.count → ∀ q,
    getChildren (es.foldl (addInstance n) h) q =
      ((es.filter fun e => sceneTransform h n e.1 none = some q).map Prod.snd).foldl insertEnd (getChildren h q) := by
  induction es with
  | nil => exact fun h _ _ q => rfl
  | cons e es ih =>
    intro h ok hn q
    have h1 := addInstance_near n h ok e
    rw [List.foldl_cons, ih _ (h1.same.ok ok) (by rw [h1.same.count]; exact hn) q]
    have hsc : ∀ r, sceneTransform (addInstance n h e) n r none = sceneTransform h n r none :=
      fun r => (h1.same.from n).sceneTransform ok hn r none
    simp only [hsc, List.filter_cons]
    cases he : sceneTransform h n e.1 none with
    | none =>
      have : addInstance n h e = h := by unfold addInstance; rw [he]
      rw [this]
      simp
    | some p =>
      have : addInstance n h e = addChild h p e.2 := by unfold addInstance; rw [he]
      rw [this, addChild_children h p e.2 q ok (sceneTransform_scene h ok _ _ _ _ he).2]
      by_cases hq : q = p
      · subst hq
        simp
      · rw [if_neg hq, if_neg (by simpa using fun hc : p = q => hq hc.symm)]

theorem insertEnd_fold (es : List Ptr) : ∀ (l : List Ptr), ∃ x, es.foldl insertEnd l = l ++ x ∧ x.Nodup ∧
    (∀ c ∈ x, c ∉ l ∧ c ∈ es) ∧ ∀ c ∈ es, c ∈ l ∨ c ∈ x := by
  induction es with
  | nil => exact fun l => ⟨[], by simp, by simp, by simp, by simp⟩
  | cons e es ih =>
    intro l
    rw [List.foldl_cons]
    by_cases he : e ∈ l
    · obtain ⟨x, h1, h2, h3, h4⟩ := ih l
      have : insertEnd l e = l := if_pos he
      rw [this]
      refine ⟨x, h1, h2, fun c hc => ⟨(h3 c hc).1, List.mem_cons_of_mem _ (h3 c hc).2⟩, ?_⟩
      intro c hc
      rcases List.mem_cons.1 hc with rfl | hc
      · exact Or.inl he
      · exact h4 c hc
    · obtain ⟨x, h1, h2, h3, h4⟩ := ih (l ++ [e])
      have : insertEnd l e = l ++ [e] := if_neg he
      rw [this]
      refine ⟨e :: x, by rw [h1]; simp, ?_, ?_, ?_⟩
      · exact List.nodup_cons.2 ⟨fun hc => (h3 e hc).1 (by simp), h2⟩
      · intro c hc
        rcases List.mem_cons.1 hc with rfl | hc
        · exact ⟨he, by simp⟩
        · exact ⟨fun hcl => (h3 c hc).1 (by simp [hcl]), List.mem_cons_of_mem _ (h3 c hc).2⟩
      · intro c hc
        rcases List.mem_cons.1 hc with rfl | hc
        · exact Or.inr (by simp)
        · rcases h4 c hc with h | h
          · rcases List.mem_append.1 h with h | h
            · exact Or.inl h
            · rw [List.mem_singleton] at h
              subst h
              exact Or.inr (by simp)
          · exact Or.inr (List.mem_cons_of_mem _ h)

end Verif.Unity
