import Verif.Conv.GltfShared
import Verif.Geom.MatProps
import Mathlib.Tactic.FieldSimp
import Mathlib.Tactic.LinearCombination

/-! Lemmas about shared geometry. -/

namespace Verif.Conv

open Verif.Geom
open Verif.Mqo (Str)

variable {F : Type}

/-- The first object with the key. -/
def firstWith (xs : List (GItem F)) (k : Str) : Option (GItem F) := xs.find? fun x => x.key == some k

theorem firstWith_append_of_some (pre xs : List (GItem F)) (k : Str) (z : GItem F) (h : firstWith pre k = some z) :
    firstWith (pre ++ xs) k = some z := by
  unfold firstWith at h ⊢
  rw [List.find?_append, h]
  rfl

theorem firstWith_append_of_none (pre : List (GItem F)) (x : GItem F) (xs : List (GItem F)) (k : Str)
    (h : firstWith pre k = none) (hx : x.key = some k) : firstWith (pre ++ x :: xs) k = some x := by
  unfold firstWith at h ⊢
  rw [List.find?_append, h]
  simp [hx]

theorem firstWith_key (xs : List (GItem F)) (k : Str) (z : GItem F) (h : firstWith xs k = some z) : z.key = some k := by
  unfold firstWith at h
  simpa using List.find?_some h

/-- The matrix with its last row set. -/
def lastRow [Zero F] [One F] (m : Mat4 F) : Mat4 F := { m with m3 := 0, m7 := 0, m11 := 0, m15 := 1 }

section

variable [Add F] [Sub F] [Mul F] [Div F] [Zero F] [One F] [DecidableEq F]

/-- The caches after the objects `pre`. -/
def Cached (count : Str → Nat) (pre : List (GItem F)) (caches : Str → Option (GeomCache F)) : Prop :=
  ∀ k, 1 < count k → match firstWith pre k with
    | none => caches k = none
    | some x => ∃ t g, x.internal = some t ∧ caches k = some g ∧ g.matrix = t.inverse ∧
        (x.mesh.skipped = false → g.attrs = some (ownAttrs x.normals x.mesh) ∧ g.indices = x.mesh.prims.map (·.2))

/-- What is written for `x` if the first object with its key is `z`. -/
def SharedOut (scale : F) (z x : GItem F) (y : OutMesh F × Option (Mat4 F)) : Prop :=
  ∃ tz, z.internal = some tz ∧
    y.1.attrs = ⟨z.mesh.pos, if x.mesh.useUV then (ownAttrs z.normals z.mesh).uv else none,
      if x.normals then (ownAttrs z.normals z.mesh).nrm else none⟩ ∧
    x.mesh.prims.length ≤ z.mesh.prims.length ∧
    y.1.prims = (x.mesh.prims.map (·.1)).zip (z.mesh.prims.map (·.2)) ∧
    ∀ t, x.internal = some t → y.2 = some (lastRow ((t.translationScale scale).mul tz.inverse))

theorem zip_self {α β : Type} (l : List (α × β)) : (l.map (·.1)).zip (l.map (·.2)) = l := by
  induction l with
  | nil => rfl
  | cons a l ih => simp [ih]

omit [Add F] [Sub F] [Mul F] [Div F] [Zero F] [One F] [DecidableEq F] in
theorem writeMesh_own (normals : Bool) (m : GMesh F) :
    writeMesh normals m none = some (⟨ownAttrs normals m, m.prims⟩, none) := by
  simp [writeMesh, attrsOf, indicesOf, zip_self]

omit [Add F] [Sub F] [Mul F] [Div F] [Zero F] [One F] [DecidableEq F] in
theorem ownAttrs_again (normals : Bool) (m : GMesh F) :
    (⟨m.pos, if m.useUV then (ownAttrs normals m).uv else none, if normals then (ownAttrs normals m).nrm else none⟩ : Attrs F) =
      ownAttrs normals m := by
  unfold ownAttrs
  cases m.useUV <;> cases normals <;> rfl

theorem exportItem_shared (scale : F) (lights : Bool) (count : Str → Nat) (caches caches' : Str → Option (GeomCache F))
    (pre : List (GItem F)) (x : GItem F) (y : OutMesh F × Option (Mat4 F)) (hc : Cached count pre caches)
    (h : exportItem scale true lights count caches x = some (y, caches')) :
    Cached count (pre ++ [x]) caches' ∧
    ∀ k z, x.key = some k → 1 < count k → firstWith (pre ++ [x]) k = some z → z.mesh.skipped = false →
      x.mesh.skipped = false → SharedOut scale z x y := by
  have other : ∀ k, x.key ≠ some k → firstWith (pre ++ [x]) k = firstWith pre k := by
    intro k hk
    unfold firstWith
    rw [List.find?_append]
    simp [hk]
  unfold exportItem at h
  split at h
  · cases h
  · next hs =>
    rw [writeMesh_own] at h
    simp only [Option.some.injEq, Prod.mk.injEq] at h
    obtain ⟨-, rfl⟩ := h
    have hno : ∀ k, x.key = some k → ¬ 1 < count k := by
      intro k hk hlt
      unfold sharedOf at hs
      simp only [hk, hlt, and_self, if_true] at hs
      split at hs <;> try cases hs
      split at hs <;> cases hs
    refine ⟨?_, fun k z hk hlt => absurd hlt (hno k hk)⟩
    intro k hk
    rw [other k (fun e => hno k e hk)]
    exact hc k hk
  · next k g hs =>
    have hk : x.key = some k ∧ 1 < count k ∧
        (caches k = some g ∨ caches k = none ∧ ∃ t, x.internal = some t ∧ g = ⟨t.inverse, none, []⟩) := by
      unfold sharedOf at hs
      split at hs
      · next k' hk' =>
        split at hs
        · next hlt =>
          split at hs
          · next g' hg' =>
            simp only [Option.some.injEq, Prod.mk.injEq] at hs
            obtain ⟨rfl, rfl⟩ := hs
            exact ⟨hk', hlt.2, .inl hg'⟩
          · next hg' =>
            split at hs
            · next t ht =>
              simp only [Option.some.injEq, Prod.mk.injEq] at hs
              obtain ⟨rfl, rfl⟩ := hs
              exact ⟨hk', hlt.2, .inr ⟨hg', t, ht, rfl⟩⟩
            · cases hs
        · cases hs
      · cases hs
    obtain ⟨hkey, hlt, hg⟩ := hk
    split at h
    · cases h
    · next m g' hw =>
      simp only [Option.some.injEq, Prod.mk.injEq] at h
      obtain ⟨rfl, rfl⟩ := h
      unfold writeMesh at hw
      simp only [Option.map_some] at hw
      split at hw
      · cases hw
      · next hlen =>
        simp only [Option.some.injEq, Prod.mk.injEq] at hw
        obtain ⟨rfl, rfl⟩ := hw
        have hck := hc k hlt
        have hmat : ∀ t, x.internal = some t → nodeMatrix scale lights x (some g) =
            some (lastRow ((t.translationScale scale).mul g.matrix)) := by
          intro t ht
          simp [nodeMatrix, ht, lastRow]
        -- the cache of the key
        have hthis : ∀ z, firstWith (pre ++ [x]) k = some z → ∃ t, z.internal = some t ∧
            (updateCache x.normals x.mesh g).matrix = t.inverse ∧ g.matrix = t.inverse ∧
            (z.mesh.skipped = false → (updateCache x.normals x.mesh g).attrs = some (ownAttrs z.normals z.mesh) ∧
              (updateCache x.normals x.mesh g).indices = z.mesh.prims.map (·.2) ∧
              (x.mesh.skipped = false → attrsOf x.normals x.mesh (some g) =
                ⟨z.mesh.pos, if x.mesh.useUV then (ownAttrs z.normals z.mesh).uv else none,
                  if x.normals then (ownAttrs z.normals z.mesh).nrm else none⟩)) := by
          intro z hz
          cases hf : firstWith pre k with
          | some z' =>
            rw [firstWith_append_of_some pre [x] k z' hf] at hz
            cases hz
            rw [hf] at hck
            obtain ⟨t, g0, h1, h2, h3, h4⟩ := hck
            have hgg : g = g0 := by
              rcases hg with hg | ⟨hg, -⟩
              · rw [hg] at h2; cases h2; rfl
              · rw [hg] at h2; cases h2
            subst hgg
            refine ⟨t, h1, ?_, h3, ?_⟩
            · unfold updateCache
              split <;> exact h3
            · intro hs
              obtain ⟨ha, hi⟩ := h4 hs
              have hu : updateCache x.normals x.mesh g = g := by
                unfold updateCache
                rw [if_neg]
                rintro ⟨-, e⟩
                rw [ha] at e
                cases e
              rw [hu]
              refine ⟨ha, hi, ?_⟩
              intro hxs
              simp [attrsOf, ha, hxs, ownAttrs]
          | none =>
            rw [firstWith_append_of_none pre x [] k hf hkey] at hz
            cases hz
            rw [hf] at hck
            rcases hg with hg | ⟨-, t, ht, rfl⟩
            · rw [hck] at hg; cases hg
            · refine ⟨t, ht, ?_, rfl, ?_⟩
              · unfold updateCache
                split <;> rfl
              · intro hs
                have hu : updateCache x.normals x.mesh ⟨t.inverse, none, []⟩ =
                    ⟨t.inverse, some (ownAttrs x.normals x.mesh), x.mesh.prims.map (·.2)⟩ := by
                  unfold updateCache
                  rw [if_pos ⟨hs, rfl⟩]
                  rfl
                rw [hu]
                refine ⟨rfl, rfl, fun _ => ?_⟩
                rw [ownAttrs_again]
                rfl
        constructor
        · intro k' hk'
          by_cases e : k' = k
          · subst e
            cases hz : firstWith (pre ++ [x]) k' with
            | none =>
              exfalso
              cases hf : firstWith pre k' with
              | some z' => rw [firstWith_append_of_some pre [x] k' z' hf] at hz; cases hz
              | none => rw [firstWith_append_of_none pre x [] k' hf hkey] at hz; cases hz
            | some z =>
              obtain ⟨t, h1, h2, h3, h4⟩ := hthis z hz
              refine ⟨t, updateCache x.normals x.mesh g, h1, by simp, h2, fun hs => ⟨(h4 hs).1, (h4 hs).2.1⟩⟩
          · have hne : x.key ≠ some k' := by
              rw [hkey]
              intro e'
              cases e'
              exact e rfl
            rw [other k' hne, Function.update_of_ne e]
            exact hc k' hk'
        · intro k' z hk' _ hz hs hxs
          rw [hkey] at hk'
          cases hk'
          obtain ⟨t, h1, h2, h3, h4⟩ := hthis z hz
          obtain ⟨-, hi, hattr⟩ := h4 hs
          have hidx : indicesOf x.mesh (some (updateCache x.normals x.mesh g)) = z.mesh.prims.map (·.2) := by
            simp [indicesOf, hxs, hi]
          rw [hidx] at hlen
          refine ⟨t, h1, hattr hxs, ?_, ?_, ?_⟩
          · simpa using hlen
          · simp only [hidx]
          · intro t' ht'
            rw [hmat t' ht', h3]

theorem exportItems_loop (scale : F) (lights : Bool) (count : Str → Nat) (xs : List (GItem F)) :
    ∀ (pre : List (GItem F)) (caches : Str → Option (GeomCache F)) (ys : List (OutMesh F × Option (Mat4 F))),
      Cached count pre caches → exportItems scale true lights count caches xs = some ys →
      ∀ (i : Nat) (x : GItem F), xs[i]? = some x → ∃ y, ys[i]? = some y ∧
        ∀ k z, x.key = some k → 1 < count k → firstWith (pre ++ xs) k = some z → z.mesh.skipped = false →
          x.mesh.skipped = false → SharedOut scale z x y := by
  induction xs with
  | nil => intro pre caches ys _ _ i x hx; simp at hx
  | cons x0 xs ih =>
    intro pre caches ys hc h i x hx
    simp only [exportItems] at h
    split at h
    · cases h
    · next y0 caches' h0 =>
      split at h
      · cases h
      · next ys' h1 =>
        simp only [Option.some.injEq] at h
        subst h
        obtain ⟨hc', hthis⟩ := exportItem_shared scale lights count caches caches' pre x0 y0 hc h0
        cases i with
        | zero =>
          simp only [List.getElem?_cons_zero, Option.some.injEq] at hx
          subst hx
          refine ⟨y0, rfl, ?_⟩
          intro k z hk hlt hz hs hxs
          refine hthis k z hk hlt ?_ hs hxs
          rw [← hz]
          cases hf : firstWith pre k with
          | some z' =>
            rw [firstWith_append_of_some _ _ _ _ hf, firstWith_append_of_some _ _ _ _ hf]
          | none =>
            rw [firstWith_append_of_none _ _ _ _ hf hk, firstWith_append_of_none _ _ _ _ hf hk]
        | succ i =>
          simp only [List.getElem?_cons_succ] at hx
          obtain ⟨y, hy, hy2⟩ := ih (pre ++ [x0]) caches' ys' hc' h1 i x hx
          refine ⟨y, by simpa using hy, ?_⟩
          simpa using hy2

end

end Verif.Conv
