import Verif.Conv.UnityStep

/-! The run of the Unity converter over the game objects of a scene. -/

namespace Verif.Conv

open Verif.Geom
open Verif.Mqo (Str Object Face Bone MorphTargetList Material PhysicsShape PhysicsBody)
open Verif.Unity (Trig Mesh builtinMesh)

variable {F : Type}

/-- A way with the object made for it and the imported objects. -/
abbrev UOut (F : Type) := List Nat × Object F × List (Object F)

/-- The objects of one step, the first one with its way. -/
def tagUnity (z : UOut F) : List (Option (List Nat) × Object F) :=
  (some z.1, z.2.1) :: z.2.2.map fun o => (none, o)

section

variable [Field F] [DecidableEq F] [FloatOps F]

inductive URun (M : UMath F) (sc : UScene F) (opt : UOptions F) (ffuel : Nat) :
    UState F → List (UOut F) → UState F → Prop
  | nil (st) : URun M sc opt ffuel st [] st
  | cons (p own imp zs st st1 st') (h : StepOk M sc opt ffuel (sc.object (p.getLastD 0)) ((p.length : Int) - 1)
      (pathMatrix sc opt.convertScale p.dropLast) (pathActive sc p) st st1 own imp)
      (h' : URun M sc opt ffuel st1 zs st') : URun M sc opt ffuel st ((p, own, imp) :: zs) st'

variable {M : UMath F} {sc : UScene F} {opt : UOptions F} {ffuel : Nat}

theorem run_of_fold : ∀ (ps : List (List Nat)) (st st' : UState F), MatInv M sc opt st →
    ps.foldlM (unityStep M sc opt ffuel) st = some st' → ∃ zs : List (UOut F), zs.map Prod.fst = ps ∧ URun M sc opt ffuel st zs st' := by
  intro ps
  induction ps with
  | nil =>
    intro st st' _ h
    have : st = st' := by simpa using h
    subst this
    exact ⟨[], rfl, .nil _⟩
  | cons p ps ih =>
    intro st st' hi h
    rw [List.foldlM_cons] at h
    cases hs : unityStep M sc opt ffuel st p with
    | none => rw [hs] at h; simp at h
    | some st1 =>
      rw [hs] at h
      obtain ⟨own, imp, hok⟩ := unityOne_spec M sc opt ffuel _ _ _ _ _ _ hi hs
      obtain ⟨zs, h1, h2⟩ := ih st1 st' hok.inv h
      exact ⟨(p, own, imp) :: zs, by simp [h1], .cons _ _ _ _ _ _ _ hok h2⟩

theorem URun.ext {st st' : UState F} {zs : List (UOut F)} (h : URun M sc opt ffuel st zs st') : MatExt st st' := by
  induction h with
  | nil => exact MatExt.refl _
  | cons p own imp zs st st1 st' h _ ih => exact h.ext.trans ih

theorem URun.inv {st st' : UState F} {zs : List (UOut F)} (h : URun M sc opt ffuel st zs st') (hi : MatInv M sc opt st) :
    MatInv M sc opt st' := by
  induction h with
  | nil => exact hi
  | cons p own imp zs st st1 st' h _ ih => exact ih h.inv

theorem URun.objects {st st' : UState F} {zs : List (UOut F)} (h : URun M sc opt ffuel st zs st') :
    st'.objects = st.objects ++ (zs.flatMap tagUnity).map Prod.snd := by
  induction h with
  | nil => simp
  | cons p own imp zs st st1 st' h _ ih =>
    rw [ih, h.objects]
    simp [tagUnity, Function.comp_def]

theorem URun.mem {st st' : UState F} {zs : List (UOut F)} (h : URun M sc opt ffuel st zs st') : ∀ z ∈ zs, ∃ sa sb,
    StepOk M sc opt ffuel (sc.object (z.1.getLastD 0)) ((z.1.length : Int) - 1)
      (pathMatrix sc opt.convertScale z.1.dropLast) (pathActive sc z.1) sa sb z.2.1 z.2.2 ∧ MatExt sb st' := by
  induction h with
  | nil => simp
  | cons p own imp zs st st1 st' h h' ih =>
    intro z hz
    rcases List.mem_cons.1 hz with rfl | hz
    · exact ⟨st, st1, h, h'.ext⟩
    · exact ih z hz

omit [DecidableEq F] [FloatOps F] in
theorem finishObject_rest (st : UState F) (vis : Bool) (sl : List Nat) (o : Object F) :
    (finishObject st vis sl o).uid = o.uid ∧ (finishObject st vis sl o).depth = o.depth ∧
    (finishObject st vis sl o).visible = vis ∧ (finishObject st vis sl o).vertexes = o.vertexes := ⟨rfl, rfl, rfl, rfl⟩

/-- Imported objects: there are some only for meshes of FBX files. -/
theorem StepOk.imported {x : UObject F} {d : Int} {parent : Mat4 F} {active : Bool} {st st' : UState F} {own : Object F}
    {imp : List (Object F)} (h : StepOk M sc opt ffuel x d parent active st st' own imp) (i : Nat) (o : Object F)
    (ho : imp[i]? = some o) : o.uid = (st.objects.length : Int) + 1 + i + 1 ∧ d + 1 ≤ o.depth ∧
      ∃ tr r rend, x.transform = some tr ∧ x.mesh = some (r, rend) ∧ builtinName r = [] ∧ (∃ fb, sc.fbx r.guid = some fb) ∧
        o.visible = (active && rend.enabled) := by
  cases htr : x.transform with
  | none =>
    rw [(h.plain (Or.inl htr)).2.2.2.2.1] at ho
    simp at ho
  | some tr =>
    cases hm : x.mesh with
    | none =>
      rw [(h.plain (Or.inr hm)).2.2.2.2.1] at ho
      simp at ho
    | some v =>
      obtain ⟨r, rend⟩ := v
      by_cases hb : builtinName r = []
      · obtain ⟨_, _, _, hf⟩ := h.fbx tr r rend htr hm hb
        cases hfb : sc.fbx r.guid with
        | none =>
          rw [(hf.missing hfb).1] at ho
          simp at ho
        | some fb =>
          obtain ⟨_, mats, stm, res, new, objects, _, _, _, _, k5, k6, k7, _, k9⟩ := hf.found fb hfb
          obtain ⟨new', e1, e2, e3⟩ := fbx_new_objects M.facet _ _ _ _ _ _ _ k6
          have hnew : new' = new := by
            rw [k7] at e1
            exact (List.append_cancel_left e1).symm
          subst hnew
          rw [k9, List.getElem?_map, Option.map_eq_some_iff] at ho
          obtain ⟨o1, ho1, rfl⟩ := ho
          have key : ∃ o0, new'[i]? = some o0 ∧ o1.uid = o0.uid ∧ o1.depth = o0.depth := by
            split at ho1
            · rw [List.getElem?_map, Option.map_eq_some_iff] at ho1
              obtain ⟨o0, h0, rfl⟩ := ho1
              exact ⟨o0, h0, rfl, rfl⟩
            · exact ⟨o1, ho1, rfl, rfl⟩
          obtain ⟨o0, h0, h1, h2⟩ := key
          refine ⟨?_, ?_, tr, r, rend, rfl, rfl, hb, ⟨fb, hfb⟩, rfl⟩
          · have := e3 i o0 h0
            rw [k5] at this
            show o1.uid = _
            rw [h1, this]
            push_cast
            ring
          · have := e2 o0 (List.mem_of_getElem? h0)
            show _ ≤ o1.depth
            rw [h2]
            simpa [fbxOptions] using this
      · rw [(h.builtin tr r rend htr hm hb).1] at ho
        simp at ho

theorem URun.ids {st st' : UState F} {zs : List (UOut F)} (h : URun M sc opt ffuel st zs st') :
    ∀ (i : Nat) (o : Object F), ((zs.flatMap tagUnity).map Prod.snd)[i]? = some o → o.uid = (st.objects.length : Int) + i + 1 := by
  induction h with
  | nil => simp
  | cons p own imp zs st st1 st' h _ ih =>
    intro i o ho
    have e : (((p, own, imp) :: zs).flatMap tagUnity).map Prod.snd = own :: (imp ++ (zs.flatMap tagUnity).map Prod.snd) := by
      simp [tagUnity, Function.comp_def]
    rw [e] at ho
    cases i with
    | zero =>
      simp only [List.getElem?_cons_zero, Option.some.injEq] at ho
      subst ho
      rw [h.uid]
      simp
    | succ i =>
      rw [List.getElem?_cons_succ, List.getElem?_append] at ho
      split at ho
      · rw [(h.imported i o ho).1]
        push_cast
        ring
      · rename_i hi
        rw [ih _ _ ho, h.objects]
        simp only [List.length_append, List.length_cons]
        have : (i : Int) = ((i - imp.length : Nat) : Int) + (imp.length : Int) := by omega
        push_cast
        rw [this]
        push_cast
        ring

end

/-! ### Ways -/

/-- A way from a root of the scene down to a game object. -/
inductive IsPath (sc : UScene F) : List Nat → Prop
  | root (k) (h : k ∈ sc.roots) : IsPath sc [k]
  | child (p : List Nat) (k : Nat) (tr : UTransform F) (hp : IsPath sc p) (ht : (sc.object (p.getLastD 0)).transform = some tr)
      (hk : some k ∈ tr.children) : IsPath sc (p ++ [k])

theorem mapM_mem {α β : Type} (v : α → Option β) : ∀ (as : List α) (ls : List β), as.mapM v = some ls →
    List.Forall₂ (fun a l => v a = some l) as ls := by
  intro as
  induction as with
  | nil => intro ls h; simp at h; subst h; exact .nil
  | cons a as ih =>
    intro ls h
    simp only [List.mapM_cons, Option.bind_eq_bind, Option.pure_def, Option.bind_eq_some_iff, Option.some.injEq] at h
    obtain ⟨l, h1, ls', h2, rfl⟩ := h
    exact .cons h1 (ih _ h2)

/-- The ways from `k` on begin with that to `k` and all go through `k`. -/
theorem unityPaths_head (sc : UScene F) : ∀ (fuel : Nat) (pre : List Nat) (k : Nat) (ps : List (List Nat)),
    unityPaths sc fuel pre k = some ps → (∃ rest, ps = (pre ++ [k]) :: rest ∧ ∀ p ∈ rest, pre.length + 1 < p.length) ∧
      ∀ p ∈ ps, (pre ++ [k]) <+: p := by
  intro fuel
  induction fuel with
  | zero => intro pre k ps h; simp [unityPaths] at h
  | succ fuel ih =>
    intro pre k ps h
    simp only [unityPaths] at h
    split at h
    · simp only [Option.some.injEq] at h
      subst h
      exact ⟨⟨[], rfl, by simp⟩, by simp⟩
    · rw [Option.map_eq_some_iff] at h
      obtain ⟨ls, hls, rfl⟩ := h
      have hf := mapM_mem _ _ _ hls
      have key : ∀ p ∈ ls.flatten, (pre ++ [k]) <+: p ∧ pre.length + 1 < p.length := by
        intro p hp
        obtain ⟨l, hl, hpl⟩ := List.mem_flatten.1 hp
        obtain ⟨c, _, hc⟩ := forall₂_mem_right hf l hl
        have := (ih _ _ _ hc).2 p hpl
        refine ⟨(List.prefix_append _ _).trans this, ?_⟩
        have := this.length_le
        simp at this
        omega
      refine ⟨⟨ls.flatten, rfl, fun p hp => (key p hp).2⟩, ?_⟩
      intro p hp
      rcases List.mem_cons.1 hp with rfl | hp
      · exact List.prefix_refl _
      · exact (key p hp).1

/-- Where the parent of a way is. -/
theorem unityPaths_parent (sc : UScene F) : ∀ (fuel : Nat) (pre : List Nat) (k : Nat) (ps : List (List Nat)),
    unityPaths sc fuel pre k = some ps → ∀ (A B : List (List Nat)) (p : List Nat), ps = A ++ p :: B → A ≠ [] →
      ∃ A1 C, A = A1 ++ p.dropLast :: C ∧ ∀ q ∈ C, p.length ≤ q.length := by
  intro fuel
  induction fuel with
  | zero => intro pre k ps h; simp [unityPaths] at h
  | succ fuel ih =>
    intro pre k ps h A B p hs hA
    simp only [unityPaths] at h
    split at h
    · simp only [Option.some.injEq] at h
      subst h
      cases A with
      | nil => exact absurd rfl hA
      | cons a A => simp at hs
    · rw [Option.map_eq_some_iff] at h
      obtain ⟨ls, hls, rfl⟩ := h
      have hf := mapM_mem _ _ _ hls
      cases A with
      | nil => exact absurd rfl hA
      | cons a A =>
        simp only [List.cons_append, List.cons.injEq] at hs
        obtain ⟨rfl, hs⟩ := hs
        obtain ⟨L1, l, L2, P, Q, q1, q2, q3, q4⟩ := flatten_split _ _ _ _ hs
        obtain ⟨c, _, hc⟩ := forall₂_mem_right hf l (by rw [q1]; simp)
        by_cases hP : P = []
        · subst hP
          obtain ⟨⟨rest, e, _⟩, _⟩ := unityPaths_head sc _ _ _ _ hc
          rw [q2] at e
          simp only [List.nil_append, List.cons.injEq] at e
          refine ⟨[], A, by rw [e.1]; simp, ?_⟩
          intro q hq
          rw [q3, List.append_nil] at hq
          obtain ⟨l', hl', hql⟩ := List.mem_flatten.1 hq
          obtain ⟨c', _, hc'⟩ := forall₂_mem_right hf l' (by rw [q1]; simp [hl'])
          have := ((unityPaths_head sc _ _ _ _ hc').2 q hql).length_le
          rw [e.1]
          simpa using this
        · obtain ⟨A1, C, e1, e2⟩ := ih _ _ _ hc P Q p q2 hP
          exact ⟨(pre ++ [k]) :: (L1.flatten ++ A1), C, by rw [q3, e1]; simp, e2⟩

/-- The ways are those of the scene. -/
theorem unityPaths_sound (sc : UScene F) : ∀ (fuel : Nat) (pre : List Nat) (k : Nat) (ps : List (List Nat)),
    unityPaths sc fuel pre k = some ps → IsPath sc (pre ++ [k]) → ∀ p ∈ ps, IsPath sc p := by
  intro fuel
  induction fuel with
  | zero => intro pre k ps h; simp [unityPaths] at h
  | succ fuel ih =>
    intro pre k ps h hk p hp
    simp only [unityPaths] at h
    split at h
    · simp only [Option.some.injEq] at h
      subst h
      rw [List.mem_singleton] at hp
      rw [hp]
      exact hk
    · rename_i tr htr
      rw [Option.map_eq_some_iff] at h
      obtain ⟨ls, hls, rfl⟩ := h
      rcases List.mem_cons.1 hp with rfl | hp
      · exact hk
      · obtain ⟨l, hl, hpl⟩ := List.mem_flatten.1 hp
        obtain ⟨c, hcm, hc⟩ := forall₂_mem_right (mapM_mem _ _ _ hls) l hl
        refine ih _ _ _ hc (.child _ _ tr hk (by simpa using htr) ?_) p hpl
        rw [List.mem_filterMap] at hcm
        obtain ⟨a, ha, e⟩ := hcm
        simp only [id] at e
        rwa [← e]

/-- With a way all those one further down are there. -/
theorem unityPaths_closed (sc : UScene F) : ∀ (fuel : Nat) (pre : List Nat) (k : Nat) (ps : List (List Nat)),
    unityPaths sc fuel pre k = some ps → ∀ p ∈ ps, ∀ tr c, (sc.object (p.getLastD 0)).transform = some tr →
      some c ∈ tr.children → p ++ [c] ∈ ps := by
  intro fuel
  induction fuel with
  | zero => intro pre k ps h; simp [unityPaths] at h
  | succ fuel ih =>
    intro pre k ps h p hp tr c htr hc
    simp only [unityPaths] at h
    split at h
    · rename_i hno
      simp only [Option.some.injEq] at h
      subst h
      rw [List.mem_singleton] at hp
      subst hp
      simp only [List.getLastD_concat] at htr
      rw [hno] at htr
      cases htr
    · rename_i tr' htr'
      rw [Option.map_eq_some_iff] at h
      obtain ⟨ls, hls, rfl⟩ := h
      have hf := mapM_mem _ _ _ hls
      rcases List.mem_cons.1 hp with rfl | hp
      · simp only [List.getLastD_concat] at htr
        rw [htr', Option.some.injEq] at htr
        subst htr
        obtain ⟨l, hl, hcl⟩ := forall₂_mem_left hf c (List.mem_filterMap.2 ⟨_, hc, rfl⟩)
        obtain ⟨⟨rest, e, _⟩, _⟩ := unityPaths_head sc _ _ _ _ hcl
        exact List.mem_cons_of_mem _ (List.mem_flatten.2 ⟨l, hl, by rw [e]; simp⟩)
      · obtain ⟨l, hl, hpl⟩ := List.mem_flatten.1 hp
        obtain ⟨c', _, hc'⟩ := forall₂_mem_right hf l hl
        exact List.mem_cons_of_mem _ (List.mem_flatten.2 ⟨l, hl, ih _ _ _ hc' p hpl tr c htr hc⟩)

/-- The ways directly below `q`. -/
def below (q : List Nat) (ps : List (List Nat)) : List (List Nat) := ps.filter fun p => p.dropLast = q

theorem below_append (q : List Nat) (a b : List (List Nat)) : below q (a ++ b) = below q a ++ below q b := List.filter_append ..

/-- Nothing is below a way that does not go through `k`, except the start. -/
theorem below_nil (sc : UScene F) (fuel : Nat) (pre : List Nat) (k : Nat) (ps : List (List Nat)) (q : List Nat)
    (h : unityPaths sc fuel pre k = some ps) (hq : ¬ (pre ++ [k]) <+: q) (hq2 : q ≠ pre) : below q ps = [] := by
  obtain ⟨⟨rest, e, hr⟩, hpre⟩ := unityPaths_head sc _ _ _ _ h
  unfold below
  rw [List.filter_eq_nil_iff]
  intro p hp hd
  simp only [decide_eq_true_eq] at hd
  rw [e] at hp
  rcases List.mem_cons.1 hp with rfl | hp'
  · simp only [List.dropLast_concat] at hd
    exact hq2 hd.symm
  · apply hq
    obtain ⟨s, hs⟩ := hpre p (by rw [e]; exact hp)
    have hlen := hr p hp'
    have hsn : s ≠ [] := by
      rintro rfl
      rw [← hs] at hlen
      simp at hlen
    rw [← hd, ← hs, List.dropLast_append_of_ne_nil hsn]
    exact List.prefix_append _ _

/-- Directly below `pre` there is only the way to `k`. -/
theorem below_pre (sc : UScene F) (fuel : Nat) (pre : List Nat) (k : Nat) (ps : List (List Nat))
    (h : unityPaths sc fuel pre k = some ps) : below pre ps = [pre ++ [k]] := by
  obtain ⟨⟨rest, e, hr⟩, _⟩ := unityPaths_head sc _ _ _ _ h
  rw [e]
  unfold below
  rw [List.filter_cons_of_pos (by simp)]
  congr 1
  rw [List.filter_eq_nil_iff]
  intro p hp hd
  simp only [decide_eq_true_eq] at hd
  have := hr p hp
  have e2 := congrArg List.length hd
  rw [List.length_dropLast] at e2
  omega

theorem below_flat_pre (sc : UScene F) (fuel : Nat) (pre : List Nat) (cs : List Nat) (ls : List (List (List Nat)))
    (hf : List.Forall₂ (fun c l => unityPaths sc fuel pre c = some l) cs ls) :
    below pre ls.flatten = cs.map fun c => pre ++ [c] := by
  induction hf with
  | nil => rfl
  | cons hc _ ih =>
    rw [List.flatten_cons, below_append, ih, below_pre sc _ _ _ _ hc]
    rfl

/-- Among several starts the ways below `q` are those of the start `q` goes through. -/
theorem below_flat (sc : UScene F) (fuel : Nat) (pre : List Nat) (q : List Nat) (c : Nat) (hq : (pre ++ [c]) <+: q) :
    ∀ (cs : List Nat) (ls : List (List (List Nat))), List.Forall₂ (fun c l => unityPaths sc fuel pre c = some l) cs ls →
      cs.Nodup → c ∈ cs → ∃ l, l ∈ ls ∧ unityPaths sc fuel pre c = some l ∧ below q ls.flatten = below q l := by
  have hne : q ≠ pre := by
    rintro rfl
    have := hq.length_le
    simp at this
  have hno : ∀ c', c' ≠ c → ¬ (pre ++ [c']) <+: q := by
    intro c' hc' h'
    have := List.prefix_of_prefix_length_le h' hq (by simp)
    have e := List.IsPrefix.eq_of_length this (by simp)
    simp only [List.append_cancel_left_eq, List.cons.injEq, and_true] at e
    exact hc' e
  intro cs ls hf
  induction hf with
  | nil => simp
  | @cons a l as ls hc hrest ih =>
    intro hnd hmem
    rw [List.nodup_cons] at hnd
    rw [List.flatten_cons, below_append]
    by_cases hac : a = c
    · subst hac
      refine ⟨l, by simp, hc, ?_⟩
      have : below q ls.flatten = [] := by
        unfold below
        rw [List.filter_eq_nil_iff]
        intro p hp
        obtain ⟨l', hl', hpl⟩ := List.mem_flatten.1 hp
        obtain ⟨c', hcm, hc'⟩ := forall₂_mem_right hrest l' hl'
        have := below_nil sc _ _ _ _ q hc' (hno c' (by rintro rfl; exact hnd.1 hcm)) hne
        unfold below at this
        exact List.filter_eq_nil_iff.1 this p hpl
      rw [this, List.append_nil]
    · obtain ⟨l', hl', h1, h2⟩ := ih hnd.2 (by
        rcases List.mem_cons.1 hmem with h | h
        · exact absurd h.symm hac
        · exact h)
      refine ⟨l', List.mem_cons_of_mem _ hl', h1, ?_⟩
      rw [below_nil sc _ _ _ _ q hc (hno a hac) hne, h2]
      rfl

/-- The ways directly below `q`, in order. -/
theorem unityPaths_below (sc : UScene F)
    (hnd : ∀ k tr, (sc.object k).transform = some tr → (tr.children.filterMap id).Nodup) :
    ∀ (fuel : Nat) (pre : List Nat) (k : Nat) (ps : List (List Nat)), unityPaths sc fuel pre k = some ps →
    ∀ q ∈ ps, below q ps = match (sc.object (q.getLastD 0)).transform with
      | some tr => (tr.children.filterMap id).map fun c => q ++ [c]
      | none => [] := by
  intro fuel
  induction fuel with
  | zero => intro pre k ps h; simp [unityPaths] at h
  | succ fuel ih =>
    intro pre k ps h q hq
    have hh := unityPaths_head sc _ _ _ _ h
    simp only [unityPaths] at h
    split at h
    · rename_i hno
      simp only [Option.some.injEq] at h
      subst h
      rw [List.mem_singleton] at hq
      subst hq
      simp only [List.getLastD_concat, hno]
      unfold below
      rw [List.filter_eq_nil_iff]
      intro p hp
      rw [List.mem_singleton] at hp
      subst hp
      simp
    · rename_i tr htr
      rw [Option.map_eq_some_iff] at h
      obtain ⟨ls, hls, rfl⟩ := h
      have hf := mapM_mem _ _ _ hls
      have hhead : below q ((pre ++ [k]) :: ls.flatten) = below q ls.flatten := by
        unfold below
        rw [List.filter_cons_of_neg]
        simp only [List.dropLast_concat, decide_eq_true_eq]
        rintro rfl
        have := (hh.2 _ hq).length_le
        simp at this
      rw [hhead]
      rcases List.mem_cons.1 hq with rfl | hq
      · rw [below_flat_pre sc fuel _ _ _ hf]
        simp only [List.getLastD_concat, htr]
      · obtain ⟨l, hl, hql⟩ := List.mem_flatten.1 hq
        obtain ⟨c, hcm, hc⟩ := forall₂_mem_right hf l hl
        obtain ⟨l', hl', h1, h2⟩ := below_flat sc fuel (pre ++ [k]) q c ((unityPaths_head sc _ _ _ _ hc).2 q hql) _ _ hf
          (hnd k tr htr) hcm
        rw [hc, Option.some.injEq] at h1
        subst h1
        rw [h2]
        exact ih _ _ _ hc q hql

/-- No way twice. -/
theorem flat_nodup (sc : UScene F) (fuel : Nat) (pre : List Nat)
    (hone : ∀ k ps, unityPaths sc fuel pre k = some ps → ps.Nodup) : ∀ (cs : List Nat) (ls : List (List (List Nat))),
    List.Forall₂ (fun c l => unityPaths sc fuel pre c = some l) cs ls → cs.Nodup → ls.flatten.Nodup := by
  intro cs ls hf
  induction hf with
  | nil => simp
  | @cons a l as ls hc hrest ih =>
    intro hnd
    rw [List.nodup_cons] at hnd
    rw [List.flatten_cons, List.nodup_append]
    refine ⟨hone _ _ hc, ih hnd.2, ?_⟩
    rintro p hp _ hp' rfl
    obtain ⟨l', hl', hpl⟩ := List.mem_flatten.1 hp'
    obtain ⟨c', hcm, hc'⟩ := forall₂_mem_right hrest l' hl'
    have h1 := (unityPaths_head sc _ _ _ _ hc).2 p hp
    have h2 := (unityPaths_head sc _ _ _ _ hc').2 p hpl
    have e := List.IsPrefix.eq_of_length (List.prefix_of_prefix_length_le h1 h2 (by simp)) (by simp)
    simp only [List.append_cancel_left_eq, List.cons.injEq, and_true] at e
    subst e
    exact hnd.1 hcm

theorem unityPaths_nodup (sc : UScene F)
    (hnd : ∀ k tr, (sc.object k).transform = some tr → (tr.children.filterMap id).Nodup) :
    ∀ (fuel : Nat) (pre : List Nat) (k : Nat) (ps : List (List Nat)), unityPaths sc fuel pre k = some ps → ps.Nodup := by
  intro fuel
  induction fuel with
  | zero => intro pre k ps h; simp [unityPaths] at h
  | succ fuel ih =>
    intro pre k ps h
    have hh := unityPaths_head sc _ _ _ _ h
    simp only [unityPaths] at h
    split at h
    · simp only [Option.some.injEq] at h
      subst h
      simp
    · rename_i tr htr
      rw [Option.map_eq_some_iff] at h
      obtain ⟨ls, hls, rfl⟩ := h
      rw [List.nodup_cons]
      refine ⟨?_, flat_nodup sc fuel _ (fun k ps => ih _ k ps) _ _ (mapM_mem _ _ _ hls) (hnd k tr htr)⟩
      intro hm
      obtain ⟨⟨rest, e, hr⟩, _⟩ := hh
      simp only [List.cons.injEq, true_and] at e
      rw [e] at hm
      have := hr _ hm
      simp at this

end Verif.Conv
