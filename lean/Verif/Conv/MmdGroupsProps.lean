import Verif.Conv.MmdGroups

/-!
C36, first part: which faces genMorphGroup puts together.
-/

namespace Verif.Conv

open Verif.Geom

variable {F : Type}

/-- Face number `fi` has vertex number `v`. -/
def Uses (d : MmdDoc F) (fi v : Nat) : Prop := ∃ f, d.faces[fi]? = some f ∧ v ∈ f

/-- Morph number `mi` has vertex number `v` among its vertex or UV targets. -/
def Touches (d : MmdDoc F) (mi v : Nat) : Prop :=
  ∃ m, d.morphs[mi]? = some m ∧ ((∃ o, ((v : Int), o) ∈ m.vertex) ∨ ∃ o, ((v : Int), o) ∈ m.uv)

/-- Two faces that have to stay together: they have a vertex in common, or one morph moves both. -/
def Linked (d : MmdDoc F) (a b : Nat) : Prop :=
  (∃ v, Uses d a v ∧ Uses d b v) ∨
  ∃ mi v w, Touches d mi v ∧ Touches d mi w ∧ Uses d a v ∧ Uses d b w

/-- Linked by a chain. -/
def Chain (d : MmdDoc F) : Nat → Nat → Prop := Relation.ReflTransGen (Linked d)

/-- All vertex numbers in faces and morphs are in range. -/
structure ValidMmd (d : MmdDoc F) : Prop where
  faces : ∀ f ∈ d.faces, ∀ v ∈ f, v < d.vertexes.length
  morphs : ∀ m ∈ d.morphs, ∀ t ∈ m.vertex.map (·.1) ++ m.uv.map (·.1),
    0 ≤ t ∧ t < (d.vertexes.length : Int)

theorem mapM_some_iff {α β} (f : α → Option β) (l : List α) :
    (∃ r, l.mapM f = some r) ↔ ∀ x ∈ l, ∃ y, f x = some y := by
  induction l with
  | nil => simp
  | cons a l ih =>
    rw [List.mapM_cons]
    constructor
    · rintro ⟨r, h⟩
      cases ha : f a with
      | none => simp [ha] at h
      | some y =>
        cases hl : l.mapM f with
        | none => simp [ha, hl] at h
        | some ys =>
          intro x hx
          rcases List.mem_cons.mp hx with rfl | hx
          · exact ⟨y, ha⟩
          · exact ih.mp ⟨ys, hl⟩ x hx
    · intro h
      obtain ⟨y, hy⟩ := h a (by simp)
      obtain ⟨ys, hys⟩ := ih.mpr fun x hx => h x (by simp [hx])
      exact ⟨y :: ys, by simp [hy, hys]⟩

theorem mapM_getElem? {α β} (f : α → Option β) (l : List α) (r : List β) (h : l.mapM f = some r) :
    r.length = l.length ∧ ∀ (i : Nat) (x : α), l[i]? = some x → ∃ y, r[i]? = some y ∧ f x = some y := by
  induction l generalizing r with
  | nil =>
    simp at h; subst h; simp
  | cons a l ih =>
    rw [List.mapM_cons] at h
    cases ha : f a with
    | none => simp [ha] at h
    | some y =>
      cases hl : l.mapM f with
      | none => simp [ha, hl] at h
      | some ys =>
        simp [ha, hl] at h
        subst h
        obtain ⟨h1, h2⟩ := ih ys hl
        refine ⟨by simp [h1], ?_⟩
        intro i x hi
        cases i with
        | zero => simp at hi; subst hi; exact ⟨y, by simp, ha⟩
        | succ i => simpa using h2 i x (by simpa using hi)

theorem targetsOf_valid (d : MmdDoc F) : (∃ r, d.morphs.mapM (targetsOf d.vertexes.length) = some r) ↔
    ∀ m ∈ d.morphs, ∀ t ∈ m.vertex.map (·.1) ++ m.uv.map (·.1),
      0 ≤ t ∧ t < (d.vertexes.length : Int) := by
  rw [mapM_some_iff]
  refine forall₂_congr fun m hm => ?_
  unfold targetsOf
  rw [mapM_some_iff]
  refine forall₂_congr fun t ht => ?_
  split <;> simp_all

theorem mem_targetsOf (nv : Nat) (m : MmdMorph F) (ts : List Nat) (h : targetsOf nv m = some ts)
    (v : Nat) : v ∈ ts ↔ ((∃ o, ((v : Int), o) ∈ m.vertex) ∨ ∃ o, ((v : Int), o) ∈ m.uv) := by
  have key : ∀ (l : List Int) (ts : List Nat), (l.mapM fun (t : Int) =>
      if 0 ≤ t ∧ t < (nv : Int) then some t.toNat else none) = some ts →
      (v ∈ ts ↔ (v : Int) ∈ l) := by
    intro l
    induction l with
    | nil => intro ts h; simp at h; subst h; simp
    | cons a l ih =>
      intro ts h
      rw [List.mapM_cons] at h
      by_cases ha : 0 ≤ a ∧ a < (nv : Int)
      · rw [if_pos ha] at h
        cases hl : (l.mapM fun (t : Int) => if 0 ≤ t ∧ t < (nv : Int) then some t.toNat else none) with
        | none => simp [hl] at h
        | some ys =>
          simp [hl] at h
          subst h
          simp only [List.mem_cons, ih ys hl]
          have : v = a.toNat ↔ (v : Int) = a := by omega
          rw [this]
      · rw [if_neg ha] at h; simp at h
  rw [key _ ts h, List.mem_append, List.mem_map, List.mem_map]
  constructor
  · rintro (⟨⟨t, o⟩, h1, h2⟩ | ⟨⟨t, o⟩, h1, h2⟩)
    · simp only at h2; subst h2; exact .inl ⟨o, h1⟩
    · simp only at h2; subst h2; exact .inr ⟨o, h1⟩
  · rintro (⟨o, h1⟩ | ⟨o, h1⟩)
    · exact .inl ⟨_, h1, rfl⟩
    · exact .inr ⟨_, h1, rfl⟩

/-- What the tables of `genMorphGroup` say, for one run: colours of faces and of morphs. -/
theorem genMorphGroup_run (d : MmdDoc F) (hv : ValidMmd d) :
    ∃ (mg2m mg2fs : List (List Nat)) (grp mc : Nat → Nat),
      genMorphGroup d = some (mg2m, mg2fs) ∧ mg2fs.length = mg2m.length ∧ mg2m[0]? = some [] ∧
      (∀ g, g < mg2m.length → mg2fs[g]? =
        some ((List.range d.faces.length).filter fun fi => grp fi = g)) ∧
      (∀ fi, fi < d.faces.length → grp fi < mg2m.length) ∧
      (∀ (g : Nat) (l : List Nat), mg2m[g]? = some l → 0 < g → l.Nodup ∧ l ≠ [] ∧
        ∀ mi, mi ∈ l ↔ mi < d.morphs.length ∧ mc mi = g) ∧
      (∀ fi mi v, Uses d fi v → Touches d mi v → grp fi = mc mi ∧ 0 < mc mi) ∧
      (∀ fi, fi < d.faces.length → 0 < grp fi → ∃ fj mi v, Chain d fi fj ∧ Uses d fj v ∧
        Touches d mi v) ∧
      (∀ mi, mi < d.morphs.length → 0 < mc mi → ∃ fi v, Uses d fi v ∧ Touches d mi v) ∧
      (∀ a b, a < d.faces.length → b < d.faces.length → 0 < grp a →
        (grp a = grp b ↔ Chain d a b)) := by
  classical
  obtain ⟨targets, htargets⟩ := (targetsOf_valid d).mpr hv.morphs
  have hfv : d.faces.all (·.all (· < d.vertexes.length)) = true := by
    simp only [List.all_eq_true, decide_eq_true_eq]
    exact hv.faces
  -- faces
  have huse : ∀ i, (∃ v, Uses d i v) → i < d.faces.length := by
    rintro i ⟨v, f, hf, _⟩
    exact (List.getElem?_eq_some_iff.mp hf).1
  have hA : ∀ i k, k ∈ faceAdj d.faces (v2fOf d.vertexes.length d.faces) i ↔
      ∃ v, Uses d i v ∧ Uses d k v := by
    intro i k
    rw [mem_faceAdj _ _ _ _ hv.faces]
    constructor
    · rintro ⟨v, f, g, h1, h2, h3, h4⟩; exact ⟨v, ⟨f, h1, h2⟩, ⟨g, h3, h4⟩⟩
    · rintro ⟨v, ⟨f, h1, h2⟩, ⟨g, h3, h4⟩⟩; exact ⟨v, f, g, h1, h2, h3, h4⟩
  obtain ⟨f2fg, fgs, e1, G1⟩ := groupAll_spec
    (faceAdj d.faces (v2fOf d.vertexes.length d.faces)) (fun _ => true) d.faces.length
    (by intro i _ k hk; obtain ⟨v, _, h⟩ := (hA i k).mp hk; exact huse k ⟨v, h⟩)
    (by intro i _ k hk; obtain ⟨v, h, h'⟩ := (hA i k).mp hk; exact (hA k i).mpr ⟨v, h', h⟩)
    (fun _ _ _ _ _ => rfl)
  have hsame : ∀ a b v, Uses d a v → Uses d b v → f2fg.getD a 0 = f2fg.getD b 0 := by
    intro a b v h1 h2
    exact (G1.same a b (huse a ⟨v, h1⟩) (huse b ⟨v, h2⟩) rfl rfl).mpr
      (Relation.ReflTransGen.single ((hA a b).mpr ⟨v, h1, h2⟩))
  have hchain : ∀ a b, a < d.faces.length → b < d.faces.length →
      f2fg.getD a 0 = f2fg.getD b 0 → Chain d a b := by
    intro a b ha hb h
    have := (G1.same a b ha hb rfl rfl).mp h
    clear hb h
    induction this with
    | refl => exact Relation.ReflTransGen.refl
    | tail _ hxy ih => exact Relation.ReflTransGen.tail ih (Or.inl ((hA _ _).mp hxy))
  -- morphs
  let m2fg : List (List Nat) :=
    targets.map (morphFaceGroups (v2fOf d.vertexes.length d.faces) f2fg)
  obtain ⟨hlen, htg⟩ := mapM_getElem? _ _ _ htargets
  have hm2len : m2fg.length = d.morphs.length := by simp [m2fg, hlen]
  have hM : ∀ mi g, g ∈ m2fg.getD mi [] ↔
      ∃ v fi, Touches d mi v ∧ Uses d fi v ∧ f2fg.getD fi 0 = g := by
    intro mi g
    cases hmi : d.morphs[mi]? with
    | none =>
      constructor
      · intro h
        rw [List.getD_eq_getElem?_getD, List.getElem?_eq_none] at h
        · simp at h
        · rw [hm2len]; exact List.getElem?_eq_none_iff.mp hmi
      · rintro ⟨v, fi, ⟨m, hm, _⟩, _⟩
        rw [hmi] at hm; cases hm
    | some m =>
      obtain ⟨ts, ht1, ht2⟩ := htg mi m hmi
      have hget : m2fg.getD mi [] =
          morphFaceGroups (v2fOf d.vertexes.length d.faces) f2fg ts := by
        simp [m2fg, List.getD_eq_getElem?_getD, ht1]
      rw [hget, mem_morphFaceGroups]
      have hmt := mem_targetsOf _ m ts ht2
      constructor
      · rintro ⟨t, ht, f, r, h1, h2⟩
        have hf : f ∈ (v2fOf d.vertexes.length d.faces).getD t [] := by rw [h1]; simp
        obtain ⟨_, l, h3, h4⟩ := (mem_v2fOf _ _ _ _).mp hf
        exact ⟨t, f, ⟨m, hmi, (hmt t).mp ht⟩, ⟨l, h3, h4⟩, h2⟩
      · rintro ⟨v, fi, ⟨m', hm', hv'⟩, hu, hg⟩
        rw [hmi] at hm'
        obtain rfl := Option.some.inj hm'
        have hmem : fi ∈ (v2fOf d.vertexes.length d.faces).getD v [] := by
          obtain ⟨l, h3, h4⟩ := hu
          exact (mem_v2fOf _ _ _ _).mpr ⟨hv.faces l (List.mem_of_getElem? h3) v h4, l, h3, h4⟩
        cases hvf : (v2fOf d.vertexes.length d.faces).getD v [] with
        | nil => rw [hvf] at hmem; cases hmem
        | cons f r =>
          refine ⟨v, (hmt v).mpr hv', f, r, hvf, ?_⟩
          have hf : f ∈ (v2fOf d.vertexes.length d.faces).getD v [] := by rw [hvf]; simp
          obtain ⟨_, l, h3, h4⟩ := (mem_v2fOf _ _ _ _).mp hf
          rw [← hg]
          exact hsame f fi v ⟨l, h3, h4⟩ hu
  have hglt : ∀ mi g, g ∈ m2fg.getD mi [] → g < fgs.length := by
    intro mi g h
    obtain ⟨v, fi, _, _, rfl⟩ := (hM mi g).mp h
    exact G1.lt fi
  let adjM : Nat → List Nat := fun mi =>
    (m2fg.getD mi []).flatMap fun fg => (fg2mOf fgs.length m2fg).getD fg []
  have hAM : ∀ i k, k ∈ adjM i ↔ ∃ g, g ∈ m2fg.getD i [] ∧ g ∈ m2fg.getD k [] := by
    intro i k
    simp only [adjM, List.mem_flatMap, fg2mOf_eq, mem_v2fOf]
    constructor
    · rintro ⟨g, h1, _, l, h2, h3⟩
      exact ⟨g, h1, by simpa [List.getD_eq_getElem?_getD, h2] using h3⟩
    · rintro ⟨g, h1, h2⟩
      refine ⟨g, h1, hglt i g h1, ?_⟩
      cases hk : m2fg[k]? with
      | none => simp [List.getD_eq_getElem?_getD, hk] at h2
      | some l => exact ⟨l, rfl, by simpa [List.getD_eq_getElem?_getD, hk] using h2⟩
  have hmlt : ∀ k g, g ∈ m2fg.getD k [] → k < m2fg.length := by
    intro k g h
    by_contra hk
    rw [List.getD_eq_getElem?_getD, List.getElem?_eq_none (by omega)] at h
    simp at h
  have hselM : ∀ mi, (!(m2fg.getD mi []).isEmpty) = true ↔ ∃ g, g ∈ m2fg.getD mi [] := by
    intro mi
    cases m2fg.getD mi [] <;> simp
  obtain ⟨m2mg, mg2m, e2, G2⟩ := groupAll_spec adjM (fun mi => !(m2fg.getD mi []).isEmpty)
    m2fg.length
    (by intro i _ k hk; obtain ⟨g, _, h⟩ := (hAM i k).mp hk; exact hmlt k g h)
    (by intro i _ k hk; obtain ⟨g, h, h'⟩ := (hAM i k).mp hk; exact (hAM k i).mpr ⟨g, h', h⟩)
    (by intro i _ _ k hk; obtain ⟨g, _, h⟩ := (hAM i k).mp hk; exact (hselM k).mpr ⟨g, h⟩)
  -- morph groups of face groups
  have hcol : ∀ mi g, g ∈ m2fg.getD mi [] → 0 < m2mg.getD mi 0 := by
    intro mi g h
    exact Nat.pos_of_ne_zero ((G2.sel_iff mi (hmlt mi g h)).mpr ((hselM mi).mpr ⟨g, h⟩))
  have hmsame : ∀ mi mj g, g ∈ m2fg.getD mi [] → g ∈ m2fg.getD mj [] →
      m2mg.getD mi 0 = m2mg.getD mj 0 := by
    intro mi mj g h1 h2
    exact (G2.same mi mj (hmlt mi g h1) (hmlt mj g h2) ((hselM mi).mpr ⟨g, h1⟩)
      ((hselM mj).mpr ⟨g, h2⟩)).mpr
      (Relation.ReflTransGen.single ((hAM mi mj).mpr ⟨g, h1, h2⟩))
  have hassign : ∀ g k, (g, k) ∈ assignments mg2m m2fg ↔
      ∃ mi, g ∈ m2fg.getD mi [] ∧ m2mg.getD mi 0 = k := by
    intro g k
    rw [mem_assignments]
    constructor
    · rintro ⟨ms, h1, mi, h2, h3⟩
      by_cases hk : 0 < k
      · exact ⟨mi, h3, (((G2.mem k ms h1 hk).2.2 mi).mp h2).2⟩
      · have : k = 0 := by omega
        subst this
        rw [G2.first] at h1
        obtain rfl := Option.some.inj h1
        cases h2
    · rintro ⟨mi, h1, h2⟩
      have hk := hcol mi g h1
      have hkl := G2.lt mi
      rw [h2] at hk hkl
      refine ⟨mg2m[k], by simp [hkl], mi, ?_, h1⟩
      exact ((G2.mem k mg2m[k] (by simp [hkl]) hk).2.2 mi).mpr ⟨hmlt mi g h1, h2⟩
  let fg2mg := fg2mgOf fgs.length mg2m m2fg
  have hfg : ∀ g mi, g ∈ m2fg.getD mi [] → fg2mg.getD g 0 = m2mg.getD mi 0 := by
    intro g mi h
    simp only [fg2mg, fg2mgOf_eq]
    refine (foldl_set (assignments mg2m m2fg) g _ (by simpa using hglt mi g h)).1 _ ?_ ?_
    · rintro ⟨g', k⟩ hp rfl
      obtain ⟨mj, h1, h2⟩ := (hassign _ _).mp hp
      rw [← h2]
      exact hmsame mj mi _ h1 h
    · exact ⟨(g, m2mg.getD mi 0), (hassign _ _).mpr ⟨mi, h, rfl⟩, rfl⟩
  have hfg0 : ∀ g, g < fgs.length → (∀ mi, g ∉ m2fg.getD mi []) → fg2mg.getD g 0 = 0 := by
    intro g hg h
    simp only [fg2mg, fg2mgOf_eq]
    rw [(foldl_set (assignments mg2m m2fg) g _ (by simpa using hg)).2]
    · simp [List.getD_eq_getElem?_getD, hg]
    · rintro ⟨g', k⟩ hp rfl
      obtain ⟨mj, h1, _⟩ := (hassign _ _).mp hp
      exact h mj h1
  -- a face in a group above 0 hangs on a morph
  have hpos : ∀ fi, 0 < fg2mg.getD (f2fg.getD fi 0) 0 → ∃ mi, f2fg.getD fi 0 ∈ m2fg.getD mi [] := by
    intro fi h
    by_contra hno
    have hno' : ∀ mi, f2fg.getD fi 0 ∉ m2fg.getD mi [] := fun mi hm => hno ⟨mi, hm⟩
    rw [hfg0 _ (G1.lt fi) hno'] at h
    omega
  have hlink : ∀ mi g g' a b, g ∈ m2fg.getD mi [] → g' ∈ m2fg.getD mi [] →
      a < d.faces.length → b < d.faces.length →
      f2fg.getD a 0 = g → f2fg.getD b 0 = g' → Chain d a b := by
    intro mi g g' a b h1 h2 ha hb ea eb
    obtain ⟨v, x, t1, u1, k1⟩ := (hM mi g).mp h1
    obtain ⟨w, y, t2, u2, k2⟩ := (hM mi g').mp h2
    have c1 := hchain a x ha (huse x ⟨v, u1⟩) (ea.trans k1.symm)
    have c2 := hchain y b (huse y ⟨w, u2⟩) hb (k2.trans eb.symm)
    exact (c1.trans (Relation.ReflTransGen.single (.inr ⟨mi, v, w, t1, t2, u1, u2⟩))).trans c2
  refine ⟨mg2m, mg2fsOf mg2m.length d.faces.length fg2mg f2fg,
    fun fi => fg2mg.getD (f2fg.getD fi 0) 0, fun mi => m2mg.getD mi 0, ?_, mg2fsOf_length _ _ _ _,
    G2.first, fun g hg => mg2fsOf_getD _ _ _ _ g hg, ?_, ?_, ?_, ?_, ?_, ?_⟩
  · unfold genMorphGroup
    rw [if_pos hfv]
    simp only [e1, htargets]
    rw [show groupAll (fun mi => ((targets.map (morphFaceGroups
      (v2fOf d.vertexes.length d.faces) f2fg)).getD mi []).flatMap fun fg =>
      (fg2mOf fgs.length (targets.map (morphFaceGroups
        (v2fOf d.vertexes.length d.faces) f2fg))).getD fg []) (fun mi =>
      !((targets.map (morphFaceGroups (v2fOf d.vertexes.length d.faces) f2fg)).getD mi []).isEmpty)
      (targets.map (morphFaceGroups (v2fOf d.vertexes.length d.faces) f2fg)).length =
      some (m2mg, mg2m) from e2]
  · intro fi hfi
    simp only
    by_cases h : ∃ mi, f2fg.getD fi 0 ∈ m2fg.getD mi []
    · obtain ⟨mi, h⟩ := h
      rw [hfg _ mi h]; exact G2.lt mi
    · have h' : ∀ mi, f2fg.getD fi 0 ∉ m2fg.getD mi [] := fun mi hm => h ⟨mi, hm⟩
      rw [hfg0 _ (G1.lt fi) h']
      exact (List.getElem?_eq_some_iff.mp G2.first).1
  · intro g l h1 h2
    rw [← hm2len]
    exact G2.mem g l h1 h2
  · intro fi mi v hu ht
    have h := (hM mi (f2fg.getD fi 0)).mpr ⟨v, fi, ht, hu, rfl⟩
    exact ⟨hfg _ mi h, hcol mi _ h⟩
  · intro fi hfi h
    obtain ⟨mi, hmi⟩ := hpos fi h
    obtain ⟨v, fj, ht, hu, he⟩ := (hM mi _).mp hmi
    exact ⟨fj, mi, v, hchain fi fj hfi (huse fj ⟨v, hu⟩) he.symm, hu, ht⟩
  · intro mi hmi h
    have hs := (G2.sel_iff mi (by omega)).mp (Nat.pos_iff_ne_zero.mp h)
    obtain ⟨g, hg⟩ := (hselM mi).mp hs
    obtain ⟨v, fi, ht, hu, _⟩ := (hM mi g).mp hg
    exact ⟨fi, v, hu, ht⟩
  · intro a b ha hb hga
    simp only at hga ⊢
    obtain ⟨mi, hmi⟩ := hpos a hga
    constructor
    · intro hab
      obtain ⟨mj, hmj⟩ := hpos b (by omega)
      rw [hfg _ mi hmi, hfg _ mj hmj] at hab
      have hr := (G2.same mi mj (hmlt mi _ hmi) (hmlt mj _ hmj) ((hselM mi).mpr ⟨_, hmi⟩)
        ((hselM mj).mpr ⟨_, hmj⟩)).mp hab
      have key : ∀ mk, Reach adjM mi mk → ∀ b g', b < d.faces.length → g' ∈ m2fg.getD mk [] →
          f2fg.getD b 0 = g' → Chain d a b := by
        intro mk hk
        induction hk with
        | refl => intro b g' hb hg' e; exact hlink mi _ g' a b hmi hg' ha hb rfl e
        | @tail x y _ hxy ih =>
          intro b g' hb hg' e
          obtain ⟨g, q1, q2⟩ := (hAM x y).mp hxy
          obtain ⟨v, fk, _, hu, hfk⟩ := (hM y g).mp q2
          exact (ih fk g (huse fk ⟨v, hu⟩) q1 hfk).trans
            (hlink y g g' fk b q2 hg' (huse fk ⟨v, hu⟩) hb hfk e)
      exact key mj hr b _ hb hmj rfl
    · intro hc
      have hstep : ∀ x y, Linked d x y →
          fg2mg.getD (f2fg.getD x 0) 0 = fg2mg.getD (f2fg.getD y 0) 0 := by
        rintro x y (⟨v, h1, h2⟩ | ⟨mk, v, w, t1, t2, u1, u2⟩)
        · rw [hsame x y v h1 h2]
        · rw [hfg _ mk ((hM mk _).mpr ⟨v, x, t1, u1, rfl⟩),
            hfg _ mk ((hM mk _).mpr ⟨w, y, t2, u2, rfl⟩)]
      clear hb
      induction hc with
      | refl => rfl
      | tail _ hb ih => rw [ih, hstep _ _ hb]

/-! ## C36 -/

/-- C36. For a document with valid indices the grouping succeeds and
- every face is in exactly one group, and every group lists its faces in increasing order;
- faces with a common vertex are in the same group;
- all faces with a vertex that a morph moves are in the group of that morph, which is in no other;
- group 0 holds exactly the faces that no chain of common vertices and morphs connects to a moved
  vertex; two faces of any other group are connected by such a chain. -/
theorem genMorphGroup_spec (d : MmdDoc F) (hv : ValidMmd d) :
    ∃ mg2m mg2fs, genMorphGroup d = some (mg2m, mg2fs) ∧ mg2fs.length = mg2m.length ∧
      (∀ fi, fi < d.faces.length → ∃! g : Nat, ∃ l : List Nat, mg2fs[g]? = some l ∧ fi ∈ l) ∧
      (∀ l ∈ mg2fs, l.Pairwise (· < ·) ∧ ∀ fi ∈ l, fi < d.faces.length) ∧
      (∀ (a b v g : Nat) (l : List Nat), Uses d a v → Uses d b v → mg2fs[g]? = some l → a ∈ l → b ∈ l) ∧
      (∀ fi mi v, Uses d fi v → Touches d mi v → ∃! g : Nat, ∃ fs ms : List Nat, mg2fs[g]? = some fs ∧ fi ∈ fs ∧
        mg2m[g]? = some ms ∧ mi ∈ ms ∧ 0 < g) ∧
      (∀ (g g' : Nat) (ms ms' : List Nat) (mi : Nat), mg2m[g]? = some ms → mg2m[g']? = some ms' →
        mi ∈ ms → mi ∈ ms' → g = g') ∧
      (∀ l : List Nat, mg2fs[0]? = some l → ∀ fi, fi ∈ l ↔ fi < d.faces.length ∧
        ¬ ∃ fj mi v, Chain d fi fj ∧ Uses d fj v ∧ Touches d mi v) ∧
      (∀ (g : Nat) (l : List Nat), mg2fs[g]? = some l → 0 < g → ∀ a ∈ l, ∀ b, b < d.faces.length →
        (b ∈ l ↔ Chain d a b)) := by
  obtain ⟨mg2m, mg2fs, grp, mc, e, hlen, h0, hfs, hglt, hms, htouch, hpos, _, hchain⟩ :=
    genMorphGroup_run d hv
  have huse : ∀ i, (∃ v, Uses d i v) → i < d.faces.length := by
    rintro i ⟨v, f, hf, _⟩
    exact (List.getElem?_eq_some_iff.mp hf).1
  have hmem : ∀ (g : Nat) (l : List Nat), mg2fs[g]? = some l → ∀ fi, fi ∈ l ↔ fi < d.faces.length ∧ grp fi = g := by
    intro g l hl fi
    have hg : g < mg2m.length := by
      rw [← hlen]; exact (List.getElem?_eq_some_iff.mp hl).1
    rw [hfs g hg] at hl
    obtain rfl := Option.some.inj hl
    simp
  have hex : ∀ fi, fi < d.faces.length → ∃ l, mg2fs[grp fi]? = some l ∧ fi ∈ l := by
    intro fi hfi
    refine ⟨_, hfs _ (hglt fi hfi), ?_⟩
    simp [hfi]
  have h00 : 0 < mg2m.length := (List.getElem?_eq_some_iff.mp h0).1
  have hmm : ∀ (g : Nat) (ms : List Nat), mg2m[g]? = some ms → ∀ mi ∈ ms, 0 < g ∧ mi < d.morphs.length ∧
      mc mi = g := by
    intro g ms hg mi hmi
    by_cases hg0 : 0 < g
    · exact ⟨hg0, ((hms g ms hg hg0).2.2 mi).mp hmi⟩
    · have : g = 0 := by omega
      subst this
      rw [h0] at hg
      obtain rfl := Option.some.inj hg
      cases hmi
  refine ⟨mg2m, mg2fs, e, hlen, ?_, ?_, ?_, ?_, ?_, ?_, ?_⟩
  · intro fi hfi
    refine ⟨grp fi, hex fi hfi, ?_⟩
    rintro g ⟨l, hl, hfl⟩
    exact ((hmem g l hl fi).mp hfl).2.symm
  · intro l hl
    obtain ⟨g, hg, rfl⟩ := List.mem_iff_getElem.mp hl
    have hgm : g < mg2m.length := by omega
    have hl' := hfs g hgm
    rw [List.getElem?_eq_getElem hg] at hl'
    rw [Option.some.inj hl']
    refine ⟨List.Pairwise.filter _ List.pairwise_lt_range, ?_⟩
    intro fi hfi
    simp at hfi
    exact hfi.1
  · intro a b v g l ha hb hl hal
    rw [hmem g l hl] at hal ⊢
    refine ⟨huse b ⟨v, hb⟩, ?_⟩
    have hla : a < d.faces.length := huse a ⟨v, ha⟩
    have hlb : b < d.faces.length := huse b ⟨v, hb⟩
    rw [← hal.2]
    by_cases hga : 0 < grp a
    · exact ((hchain a b hla hlb hga).mpr (Relation.ReflTransGen.single (.inl ⟨v, ha, hb⟩))).symm
    · by_cases hgb : 0 < grp b
      · exact (hchain b a hlb hla hgb).mpr (Relation.ReflTransGen.single (.inl ⟨v, hb, ha⟩))
      · omega
  · intro fi mi v hu ht
    obtain ⟨h1, h2⟩ := htouch fi mi v hu ht
    have hfi := huse fi ⟨v, hu⟩
    obtain ⟨l, hl, hfl⟩ := hex fi hfi
    have hmi : mi < d.morphs.length := by
      obtain ⟨m, hm, _⟩ := ht
      exact (List.getElem?_eq_some_iff.mp hm).1
    refine ⟨grp fi, ⟨l, mg2m[grp fi]'(hglt fi hfi), hl, hfl, by simp, ?_, by omega⟩, ?_⟩
    · exact ((hms (grp fi) _ (List.getElem?_eq_getElem (hglt fi hfi)) (by omega)).2.2 mi).mpr
        ⟨hmi, h1.symm⟩
    · rintro g ⟨fs, ms, q1, q2, _⟩
      exact ((hmem g fs q1 fi).mp q2).2.symm
  · intro g g' ms ms' mi h1 h2 h3 h4
    rw [← (hmm g ms h1 mi h3).2.2, ← (hmm g' ms' h2 mi h4).2.2]
  · intro l hl fi
    rw [hmem 0 l hl]
    refine and_congr_right fun hfi => ?_
    constructor
    · rintro hg ⟨fj, mi, v, hc, hu, ht⟩
      obtain ⟨h1, h2⟩ := htouch fj mi v hu ht
      have hc' : Chain d fj fi := by
        clear h1 h2 hu ht
        induction hc with
        | refl => exact Relation.ReflTransGen.refl
        | tail _ hb ih =>
          refine Relation.ReflTransGen.head ?_ ih
          rcases hb with ⟨v, q1, q2⟩ | ⟨mk, v, w, q1, q2, q3, q4⟩
          · exact .inl ⟨v, q2, q1⟩
          · exact .inr ⟨mk, w, v, q2, q1, q4, q3⟩
      have := (hchain fj fi (huse fj ⟨v, hu⟩) hfi (by omega)).mpr hc'
      omega
    · intro hno
      by_contra hg
      exact hno (hpos fi hfi (by omega))
  · intro g l hl hg a ha b hb
    obtain ⟨h1, h2⟩ := (hmem g l hl a).mp ha
    rw [hmem g l hl b, ← h2, ← hchain a b h1 hb (by omega)]
    constructor
    · rintro ⟨_, h⟩; exact h.symm
    · intro h; exact ⟨hb, h.symm⟩

/-- The grouping stops the program exactly if a vertex number is out of range; in particular for a
negative target of a UV morph, although the conversion tests for it later (mmd2mqo.go:323). -/
theorem genMorphGroup_panics (d : MmdDoc F) : genMorphGroup d = none ↔ ¬ ValidMmd d := by
  constructor
  · intro h hv
    obtain ⟨_, _, e, _⟩ := genMorphGroup_spec d hv
    rw [h] at e; cases e
  · intro h
    by_contra hne
    apply h
    unfold genMorphGroup at hne
    split at hne
    · rename_i hall
      simp only at hne
      split at hne
      · exact absurd rfl hne
      · split at hne
        · exact absurd rfl hne
        · rename_i ts hts
          refine ⟨?_, (targetsOf_valid d).mp ⟨ts, hts⟩⟩
          simpa only [List.all_eq_true, decide_eq_true_eq] using hall
    · exact absurd rfl hne

/-- Two triangles with a common vertex, a third apart, and a morph on the first. -/
def groupSample : MmdDoc Int :=
  { vertexes := List.replicate 8 ⟨⟨0, 0, 0⟩, ⟨0, 0, 0⟩, ⟨0, 0⟩, [], []⟩
    faces := [[0, 1, 2], [5, 6, 7], [2, 3, 4]]
    materials := [⟨[], 9⟩]
    morphs := [⟨[], [(3, ⟨1, 0, 0⟩)], []⟩] }

example : ValidMmd groupSample := ⟨by decide, by decide⟩

example : genMorphGroup groupSample = some ([[], [0]], [[1], [0, 2]]) := by decide

end Verif.Conv
