import Verif.Conv.MmdFaces

/-!
C36: the objects of the converted document hold every face of the source once, with the same
corners. C78: morph targets.
-/

namespace Verif.Conv

open Verif.Geom

variable {F : Type} [CommRing F]

/-- The faces of a morph target: no normals. -/
def Looked.bare (l : Looked F) : Looked F := { l with normals := [] }

theorem morphTarget_spec (d : MmdDoc F) (base : OutObject F) (mi : Nat) (m : MmdMorph F)
    (hmi : d.morphs[mi]? = some m) (s : FaceState F) (hs : FaceInv d s) (hb : base.verts = s.verts)
    (hbm : base.vmap = s.vmap) (h0 : 0 < s.verts.length) :
    ∃ t, morphTarget d base mi = some t ∧ t.target = true ∧ t.name = m.name ∧
      (t.faces = base.faces.map fun f =>
        ⟨f.verts, f.material, moveUVs s.vmap f.verts m.uv f.uvs, []⟩) ∧
      ((∀ e ∈ m.vertex, ∃ vi : Nat, e.1 = (vi : Int) ∧
        vi ∈ s.vmap.map (·.1)) → ∀ p ∈ s.vmap, t.verts[p.2]? =
          (morphed d m).vertexes[p.1]?.map fun v => mmdToMqoVec v.pos) := by
  have hlt : ∀ p ∈ s.vmap, p.2 < s.verts.length := by
    intro p hp
    have : p.2 ∈ s.vmap.map (·.2) := List.mem_map.mpr ⟨p, hp, rfl⟩
    rw [hs.vals] at this
    simpa using this
  obtain ⟨vs', e, _⟩ := moveVerts_length s.vmap m.vertex s.verts h0 hlt hs.keys
  refine ⟨⟨m.name, vs', base.faces.map fun f =>
    ⟨f.verts, f.material, moveUVs s.vmap f.verts m.uv f.uvs, []⟩, base.vmap, true⟩, ?_, rfl, rfl,
    rfl, ?_⟩
  · unfold morphTarget
    simp only [hmi, hb, hbm, e]
  · intro hall p hp
    have hsrc := hs.src p hp
    have hpos := hs.pos p hp
    rw [List.getElem?_eq_getElem hsrc] at hpos
    have := moveVerts_spec s.vmap hs.keys (by rw [hs.vals]; exact List.nodup_range) m.vertex
      s.verts vs' e hall p hp _ hpos
    simp only
    rw [this]
    simp [morphed, List.getElem?_zipIdx, List.getElem?_eq_getElem hsrc]

/-- What one morph group contributes to the result. -/
structure GroupOK (d : MmdDoc F) (mat : Nat → Nat) (os : List (OutObject F))
    (ms fis : List Nat) : Prop where
  base : ∃ o ∈ os, o.target = false ∧ o.faces.map (OutFace.look o.verts) = fis.map (srcLook d mat)
  targets : ∀ mi ∈ ms, ∀ m, d.morphs[mi]? = some m →
    (∀ t ∈ m.vertex.map (·.1) ++ m.uv.map (·.1), ∃ vi : Nat, t = (vi : Int) ∧
      ∃ fi ∈ fis, Uses d fi vi) →
    ∃ t ∈ os, t.target = true ∧ t.name = m.name ∧
      t.faces.map (OutFace.look t.verts) = fis.map fun fi => (srcLook (morphed d m) mat fi).bare

theorem morphObjects_spec (d : MmdDoc F) (mat : List Nat)
    (hv : ∀ f ∈ d.faces, ∀ v ∈ f, v < d.vertexes.length) (hm : mat.length = d.faces.length)
    (pairs : List (List Nat × List Nat)) : (∀ p ∈ pairs, (∀ fi ∈ p.2, fi < d.faces.length) ∧
      (∀ mi ∈ p.1, mi < d.morphs.length) ∧ ∃ fi ∈ p.2, ∃ v, Uses d fi v) →
    ∀ mg, ∃ os, morphObjects d mat mg pairs = some os ∧
      ((os.filter fun o => !o.target).flatMap fun o => o.faces.map (OutFace.look o.verts)) =
        (pairs.flatMap (·.2)).map (srcLook d fun fi => mat.getD fi 0) ∧
      ∀ p ∈ pairs, GroupOK d (fun fi => mat.getD fi 0) os p.1 p.2 := by
  induction pairs with
  | nil => intro _ mg; exact ⟨[], rfl, rfl, by simp⟩
  | cons p ps ih =>
    intro h mg
    obtain ⟨ms, fis⟩ := p
    obtain ⟨h1, h2, h3⟩ := h (ms, fis) (by simp)
    obtain ⟨os, eo, hlook, hok⟩ := ih (fun q hq => h q (by simp [hq])) (mg + 1)
    obtain ⟨fs, s, ec, hs, _, _, hl, hf2, hkeys⟩ := convertFaces_spec d mat hv hm fis ⟨[], []⟩
      (faceInv_empty d) h1
    have h0 : 0 < s.verts.length := by
      obtain ⟨fi, hfi, v, hu⟩ := h3
      have : v ∈ s.vmap.map (·.1) := (hkeys v).mpr (.inr ⟨fi, hfi, hu⟩)
      have hl' : (s.vmap.map (·.2)).length = s.verts.length := by rw [hs.vals]; simp
      rw [List.length_map] at hl'
      have := List.length_pos_of_mem this
      rw [List.length_map] at this
      omega
    generalize hbase : (⟨['M', 'o', 'r', 'p', 'h', 'B', 'a', 's', 'e'] ++ decimal mg, s.verts, fs,
      s.vmap, false⟩ : OutObject F) = base
    have hbv : base.verts = s.verts := by rw [← hbase]
    have hbm : base.vmap = s.vmap := by rw [← hbase]
    have hbf : base.faces = fs := by rw [← hbase]
    have hbt : base.target = false := by rw [← hbase]
    obtain ⟨ts, ets⟩ := (mapM_some_iff (morphTarget d base) ms).mpr fun mi hmi => by
      obtain ⟨t, et, _⟩ := morphTarget_spec d base mi (d.morphs[mi]'(h2 mi hmi))
        (by simp) s hs hbv hbm h0
      exact ⟨t, et⟩
    obtain ⟨htl, htg⟩ := mapM_getElem? _ _ _ ets
    have htt : ∀ t ∈ ts, t.target = true := by
      intro t ht
      obtain ⟨i, hi, rfl⟩ := List.mem_iff_getElem.mp ht
      have him : i < ms.length := by omega
      obtain ⟨y, hy1, hy2⟩ := htg i ms[i] (by simp)
      rw [List.getElem?_eq_getElem hi] at hy1
      obtain rfl := Option.some.inj hy1
      have hmi := h2 ms[i] (List.getElem_mem _)
      obtain ⟨t, et, ht, _⟩ := morphTarget_spec d base ms[i] (d.morphs[ms[i]]'hmi) (by simp) s hs
        hbv hbm h0
      rw [hy2] at et
      rw [Option.some.inj et]; exact ht
    refine ⟨base :: ts ++ os, ?_, ?_, ?_⟩
    · simp only [morphObjects, ec, hbase, ets, eo]
    · have hfilter : ts.filter (fun o => !o.target) = [] := by
        rw [List.filter_eq_nil_iff]
        intro t ht
        simp [htt t ht]
      rw [List.cons_append, List.filter_cons, hbt]
      simp only [Bool.not_false, if_true, List.filter_append, hfilter, List.nil_append,
        List.flatMap_cons, hlook, List.map_append, hbv, hbf, hl]
    · intro q hq
      rcases List.mem_cons.mp hq with rfl | hq
      · refine ⟨⟨base, by simp, hbt, by rw [hbv, hbf, hl]⟩, ?_⟩
        intro mi hmi m hm' hall
        obtain ⟨t, et, t1, t2, t3, t4⟩ := morphTarget_spec d base mi m hm' s hs hbv hbm h0
        have htmem : t ∈ ts := by
          obtain ⟨i, hi, rfl⟩ := List.mem_iff_getElem.mp hmi
          obtain ⟨y, hy1, hy2⟩ := htg i ms[i] (by simp [hi])
          rw [hy2] at et
          rw [← Option.some.inj et]
          exact List.mem_of_getElem? hy1
        refine ⟨t, by simp [htmem], t1, t2, ?_⟩
        have hpos := t4 (by
          intro e he
          obtain ⟨vi, e1, fi, q1, q2⟩ := hall e.1 (by
            rw [List.mem_append]; exact .inl (List.mem_map.mpr ⟨e, he, rfl⟩))
          exact ⟨vi, e1, (hkeys vi).mpr (.inr ⟨fi, q1, q2⟩)⟩)
        have huv : ∀ e ∈ m.uv, ∃ vi : Nat, e.1 = (vi : Int) ∧ vi ∈ s.vmap.map (·.1) := by
          intro e he
          obtain ⟨vi, e1, fi, q1, q2⟩ := hall e.1 (by
            rw [List.mem_append]; exact .inr (List.mem_map.mpr ⟨e, he, rfl⟩))
          exact ⟨vi, e1, (hkeys vi).mpr (.inr ⟨fi, q1, q2⟩)⟩
        rw [t3, hbf, List.map_map]
        clear htmem t4 t3 h3 h1 hkeys hok hlook
        -- corners come from the moved vertices, everything else from the base
        have hgen : ∀ (fis : List Nat) (fs : List (OutFace F)),
            fs.map (OutFace.look s.verts) = fis.map (srcLook d fun fi => mat.getD fi 0) →
            List.Forall₂ (fun fi (f : OutFace F) => List.Forall₂ (fun vi k => (vi, k) ∈ s.vmap)
              (d.faces.getD fi []) f.verts) fis fs →
            fs.map (OutFace.look t.verts ∘ fun f =>
                ⟨f.verts, f.material, moveUVs s.vmap f.verts m.uv f.uvs, []⟩) =
              fis.map fun fi => (srcLook (morphed d m) (fun fi => mat.getD fi 0) fi).bare := by
          intro fis fs hl h
          induction h with
          | nil => rfl
          | @cons fi f fis fs hff _ ih =>
            simp only [List.map_cons, List.cons.injEq] at hl
            simp only [List.map_cons]
            rw [ih hl.2]
            congr 1
            have hc : f.verts.map (t.verts[·]?) = (d.faces.getD fi []).map fun vi =>
                (morphed d m).vertexes[vi]?.map fun v => mmdToMqoVec v.pos := by
              clear hl ih
              generalize d.faces.getD fi [] = vs at hff
              generalize f.verts = ks at hff
              induction hff with
              | nil => rfl
              | cons hk _ ih2 =>
                simp only [List.map_cons, ih2]
                rw [hpos _ hk]
            have h1 := hl.1
            simp only [OutFace.look, srcLook, Looked.mk.injEq] at h1
            obtain ⟨_, q2, q3, q4⟩ := h1
            have hu := moveUVs_spec s.vmap hs.keys (by rw [hs.vals]; exact List.nodup_range) _ _
              hff m.uv huv f.uvs _ q3
            simp only [Function.comp, OutFace.look, Looked.bare, srcLook, Looked.mk.injEq]
            refine ⟨hc, q2, ?_, rfl⟩
            rw [hu]
            apply List.map_congr_left
            intro vi _
            simp only [morphed, List.getElem?_map, List.getElem?_zipIdx]
            cases d.vertexes[vi]? <;> simp
        exact hgen fis fs hl hf2
      · obtain ⟨⟨o, ho, hb1, hb2⟩, hb3⟩ := hok q hq
        refine ⟨⟨o, by simp [ho], hb1, hb2⟩, ?_⟩
        intro mi hmi m hm' hall
        obtain ⟨t, ht, r⟩ := hb3 mi hmi m hm' hall
        exact ⟨t, by simp [ht], r⟩

/-- Everything about the objects of the result, in one place. -/
theorem convertObjects_run (d : MmdDoc F) (hv : ValidMmd d)
    (hc : (d.materials.map fun m => m.count / 3).sum = d.faces.length) :
    ∃ os mg2m mg2fs, convertObjects d = some os ∧ genMorphGroup d = some (mg2m, mg2fs) ∧
      (((os.filter fun o => !o.target).flatMap fun o => o.faces.map (OutFace.look o.verts)).Perm
        ((List.range d.faces.length).map
          (srcLook d fun fi => (materialRuns 0 d.materials).getD fi 0))) ∧
      ∀ (g : Nat) (ms fis : List Nat), 0 < g → mg2m[g]? = some ms → mg2fs[g]? = some fis →
        GroupOK d (fun fi => (materialRuns 0 d.materials).getD fi 0) os ms fis := by
  obtain ⟨mg2m, mg2fs, grp, mc, e, hlen, h0, hfs, hglt, hms, htouch, hpos, hmorph, hchain⟩ :=
    genMorphGroup_run d hv
  have huse : ∀ i, (∃ v, Uses d i v) → i < d.faces.length := by
    rintro i ⟨v, f, hf, _⟩
    exact (List.getElem?_eq_some_iff.mp hf).1
  have hpos0 : 0 < mg2m.length := (List.getElem?_eq_some_iff.mp h0).1
  obtain ⟨b, fss, rfl⟩ : ∃ b fss, mg2fs = b :: fss := by
    cases mg2fs with
    | nil => simp at hlen; omega
    | cons b l => exact ⟨b, l, rfl⟩
  obtain ⟨mm, mss, rfl⟩ : ∃ mm mss, mg2m = mm :: mss := by
    cases mg2m with
    | nil => simp at hpos0
    | cons b l => exact ⟨b, l, rfl⟩
  have hb : b = (List.range d.faces.length).filter fun fi => grp fi = 0 := by
    have := hfs 0 hpos0
    simpa using this
  obtain ⟨os, eo, hlook, htar⟩ := baseObjects_spec d hv.faces b d.materials 0 0 []
    (List.replicate d.faces.length 0) rfl (by simpa using hc.symm) (by simp)
  have hrl : (materialRuns 0 d.materials).length = d.faces.length := by
    rw [materialRuns_length]; exact hc
  have hpairs : ∀ p ∈ mss.zip fss, (∀ fi ∈ p.2, fi < d.faces.length) ∧
      (∀ mi ∈ p.1, mi < d.morphs.length) ∧ ∃ fi ∈ p.2, ∃ v, Uses d fi v := by
    rintro ⟨ms, fis⟩ hp
    obtain ⟨i, hi, ei⟩ := List.mem_iff_getElem.mp hp
    rw [List.getElem_zip, Prod.mk.injEq] at ei
    have hi1 : i < mss.length := by simp at hi; omega
    have hi2 : i < fss.length := by simp at hi; omega
    have hfis : fis = (List.range d.faces.length).filter fun fi => grp fi = i + 1 := by
      have := hfs (i + 1) (by simpa using hi1)
      rw [List.getElem?_cons_succ, List.getElem?_eq_getElem hi2, ei.2] at this
      exact Option.some.inj this
    obtain ⟨_, hne, hmem⟩ := hms (i + 1) ms (by simp [List.getElem?_eq_getElem hi1, ei.1]) (by omega)
    refine ⟨?_, fun mi hmi => ((hmem mi).mp hmi).1, ?_⟩
    · intro fi hfi
      rw [hfis] at hfi
      simp at hfi
      exact hfi.1
    · obtain ⟨mi, hmi⟩ := List.exists_mem_of_ne_nil ms hne
      obtain ⟨hlt, hcol⟩ := (hmem mi).mp hmi
      obtain ⟨fi, v, hu, ht⟩ := hmorph mi hlt (by omega)
      refine ⟨fi, ?_, v, hu⟩
      rw [hfis]
      simp only [List.mem_filter, List.mem_range, decide_eq_true_eq]
      exact ⟨huse fi ⟨v, hu⟩, by rw [(htouch fi mi v hu ht).1]; exact hcol⟩
  obtain ⟨ts, et, hlook2, hok⟩ := morphObjects_spec d (materialRuns 0 d.materials) hv.faces hrl
    (mss.zip fss) hpairs 1
  refine ⟨os ++ ts, mm :: mss, b :: fss, ?_, e, ?_, ?_⟩
  · unfold convertObjects
    simp only [List.nil_append] at eo
    simp only [e, List.headD_cons, eo, List.zip_cons_cons, List.drop_succ_cons, List.drop_zero, et]
  · have hfo : os.filter (fun o => !o.target) = os := by
      rw [List.filter_eq_self]
      intro o ho
      simp [htar o ho]
    rw [List.filter_append, List.flatMap_append, hfo, hlook, hlook2]
    simp only [List.nil_append]
    rw [← List.map_append]
    apply List.Perm.map
    have hz : (mss.zip fss).flatMap (·.2) = fss.flatten := by
      have hl : fss.length ≤ mss.length := by simp at hlen; omega
      have : (mss.zip fss).map Prod.snd = fss := List.map_snd_zip hl
      rw [List.flatMap_def, this]
    rw [hz]
    have hbb : ((List.range (List.replicate d.faces.length 0).length).map (0 + ·)).filter
        (· ∈ b) = b := by
      have : (List.range (List.replicate d.faces.length 0).length).map (0 + ·) =
          List.range d.faces.length := by simp
      rw [this]
      conv_rhs => rw [hb]
      apply List.filter_congr
      intro x hx
      rw [hb]
      simp only [List.mem_filter, hx, true_and, decide_eq_true_eq]
    rw [hbb]
    -- the lists are disjoint and cover all faces
    have hnd : (b :: fss).flatten.Nodup := by
      rw [List.nodup_flatten]
      constructor
      · intro l hl
        obtain ⟨g, hg, rfl⟩ := List.mem_iff_getElem.mp hl
        have := hfs g (by rw [← hlen]; exact hg)
        rw [List.getElem?_eq_getElem hg] at this
        rw [Option.some.inj this]
        exact List.Nodup.filter _ List.nodup_range
      · rw [List.pairwise_iff_getElem]
        intro i j hi hj hij x hx hy
        have e1 := hfs i (by rw [← hlen]; exact hi)
        have e2 := hfs j (by rw [← hlen]; exact hj)
        rw [List.getElem?_eq_getElem hi] at e1
        rw [List.getElem?_eq_getElem hj] at e2
        rw [Option.some.inj e1] at hx
        rw [Option.some.inj e2] at hy
        simp at hx hy
        omega
    have hperm : (b :: fss).flatten.Perm (List.range d.faces.length) := by
      rw [List.perm_ext_iff_of_nodup hnd List.nodup_range]
      intro fi
      rw [List.mem_flatten]
      constructor
      · rintro ⟨l, hl, hfl⟩
        obtain ⟨g, hg, rfl⟩ := List.mem_iff_getElem.mp hl
        have := hfs g (by rw [← hlen]; exact hg)
        rw [List.getElem?_eq_getElem hg] at this
        rw [Option.some.inj this] at hfl
        simp at hfl
        simpa using hfl.1
      · intro hfi
        have hfi' : fi < d.faces.length := by simpa using hfi
        have := hfs (grp fi) (hglt fi hfi')
        exact ⟨_, List.mem_of_getElem? this, by simp [hfi']⟩
    rw [List.flatten_cons] at hperm
    exact hperm
  · intro g ms fis hg h1 h2
    obtain ⟨k, rfl⟩ : ∃ k, g = k + 1 := ⟨g - 1, by omega⟩
    rw [List.getElem?_cons_succ] at h1 h2
    have hp : (ms, fis) ∈ mss.zip fss := by
      apply List.mem_of_getElem? (i := k)
      rw [List.getElem?_zip_eq_some]
      exact ⟨h1, h2⟩
    obtain ⟨⟨o, ho, hb1, hb2⟩, hb3⟩ := hok _ hp
    refine ⟨⟨o, by simp [ho], hb1, hb2⟩, ?_⟩
    intro mi hmi m hm' hall
    obtain ⟨t, ht, r⟩ := hb3 mi hmi m hm' hall
    exact ⟨t, by simp [ht], r⟩

/-! ## C36 -/

/-- C36. If the vertex numbers are valid and the materials cover the faces, the conversion succeeds
and the faces of the resulting objects (morph targets aside) are the faces of the source, each
exactly once: with the mirrored positions and normals and the UVs of their corners, and with the
material of their place in the material runs. -/
theorem convertObjects_faces (d : MmdDoc F) (hv : ValidMmd d)
    (hc : (d.materials.map fun m => m.count / 3).sum = d.faces.length) :
    ∃ os, convertObjects d = some os ∧
      ((os.filter fun o => !o.target).flatMap fun o => o.faces.map (OutFace.look o.verts)).Perm
        ((List.range d.faces.length).map
          (srcLook d fun fi => (materialRuns 0 d.materials).getD fi 0)) := by
  obtain ⟨os, _, _, e, _, h, _⟩ := convertObjects_run d hv hc
  exact ⟨os, e, h⟩

/-- C36. Vertices are shared as in the source: inside an object the vertex map is a bijection
between source vertices and vertices of the object. -/
theorem convertFaces_vmap (d : MmdDoc F) (mat : List Nat)
    (hv : ∀ f ∈ d.faces, ∀ v ∈ f, v < d.vertexes.length) (hm : mat.length = d.faces.length)
    (fis : List Nat) (hfis : ∀ fi ∈ fis, fi < d.faces.length) :
    ∃ fs s, convertFaces d mat ⟨[], []⟩ fis = some (fs, s) ∧
      (s.vmap.map (·.1)).Nodup ∧ s.vmap.map (·.2) = List.range s.verts.length ∧
      (∀ v, v ∈ s.vmap.map (·.1) ↔ ∃ fi ∈ fis, Uses d fi v) := by
  obtain ⟨fs, s, e, hs, _, _, _, _, hk⟩ := convertFaces_spec d mat hv hm fis ⟨[], []⟩
    (faceInv_empty d) hfis
  exact ⟨fs, s, e, hs.keys, hs.vals, fun v => by simpa using hk v⟩

/-! ## C78 -/

/-- C78, the part that holds: for a morph all of whose targets belong to some face, there is an
object with the name of the morph whose faces are those of its group in the source with the morph
applied. -/
theorem convertObjects_morph_partial (d : MmdDoc F) (hv : ValidMmd d)
    (hc : (d.materials.map fun m => m.count / 3).sum = d.faces.length) (mi : Nat) (m : MmdMorph F)
    (hmi : d.morphs[mi]? = some m) (hne : m.vertex ≠ [] ∨ m.uv ≠ [])
    (hused : ∀ t ∈ m.vertex.map (·.1) ++ m.uv.map (·.1), ∃ vi fi, t = ((vi : Nat) : Int) ∧
      Uses d fi vi) :
    ∃ (os : List (OutObject F)) (fis : List Nat), convertObjects d = some os ∧
      (∀ fi v, Uses d fi v → Touches d mi v → fi ∈ fis) ∧
      ∃ t ∈ os, t.target = true ∧ t.name = m.name ∧
        t.faces.map (OutFace.look t.verts) = fis.map fun fi => (srcLook (morphed d m)
          (fun fi => (materialRuns 0 d.materials).getD fi 0) fi).bare := by
  obtain ⟨os, mg2m, mg2fs, e, eg, _, hok⟩ := convertObjects_run d hv hc
  obtain ⟨mg2m', mg2fs', eg', _, _, _, _, htouch, huniq, _⟩ := genMorphGroup_spec d hv
  rw [eg] at eg'
  obtain ⟨rfl, rfl⟩ := Prod.mk.inj (Option.some.inj eg')
  have ht : ∀ t ∈ m.vertex.map (·.1) ++ m.uv.map (·.1), ∀ vi : Nat, t = (vi : Int) →
      Touches d mi vi := by
    rintro t he vi rfl
    rcases List.mem_append.mp he with h | h
    · obtain ⟨e, h1, h2⟩ := List.mem_map.mp h
      exact ⟨m, hmi, .inl ⟨e.2, by rw [← h2]; exact h1⟩⟩
    · obtain ⟨e, h1, h2⟩ := List.mem_map.mp h
      exact ⟨m, hmi, .inr ⟨e.2, by rw [← h2]; exact h1⟩⟩
  obtain ⟨e0, he0⟩ := List.exists_mem_of_ne_nil (m.vertex.map (·.1) ++ m.uv.map (·.1)) (by
    simpa [Classical.or_iff_not_imp_left] using hne)
  obtain ⟨v0, f0, hv0, hu0⟩ := hused e0 he0
  obtain ⟨g, ⟨fs, ms, q1, q2, q3, q4, q5⟩, _⟩ := htouch f0 mi v0 hu0 (ht e0 he0 v0 hv0)
  have hin : ∀ fi v, Uses d fi v → Touches d mi v → fi ∈ fs := by
    intro fi v hu htv
    obtain ⟨g', ⟨fs', ms', r1, r2, r3, r4, _⟩, _⟩ := htouch fi mi v hu htv
    have : g' = g := huniq g' g ms' ms mi r3 q3 r4 q4
    subst this
    rw [q1] at r1
    rw [Option.some.inj r1]; exact r2
  obtain ⟨_, hts⟩ := hok g ms fs q5 q3 q1
  obtain ⟨t, h1, h2, h3, h4⟩ := hts mi q4 m hmi (by
    intro e he
    obtain ⟨vi, fi, h1, h2⟩ := hused e he
    exact ⟨vi, h1, fi, hin fi vi h2 (ht e he vi h1), h2⟩)
  exact ⟨os, fs, e, hin, t, h1, h2, h3, h4⟩

/-- One triangle, an unused vertex 3, and a morph that moves vertices 1 and 3. -/
def unusedSample : MmdDoc Int :=
  { vertexes := [⟨⟨0, 0, 0⟩, ⟨0, 0, 1⟩, ⟨0, 0⟩, [], []⟩, ⟨⟨1, 0, 0⟩, ⟨0, 0, 1⟩, ⟨0, 0⟩, [], []⟩,
      ⟨⟨0, 1, 0⟩, ⟨0, 0, 1⟩, ⟨0, 0⟩, [], []⟩, ⟨⟨9, 9, 9⟩, ⟨0, 0, 1⟩, ⟨0, 0⟩, [], []⟩]
    faces := [[0, 1, 2]]
    materials := [⟨[], 3⟩]
    morphs := [⟨['m'], [(1, ⟨5, 0, 0⟩), (3, ⟨0, 7, 0⟩)], []⟩] }

/-- C78 is false: an offset for a vertex that belongs to no face is added to vertex 0 of the
object. -/
theorem convertObjects_morph_false : ∃ (d : MmdDoc Int) (m : MmdMorph Int) (os : List (OutObject Int))
    (t : OutObject Int), ValidMmd d ∧ (d.materials.map fun m => m.count / 3).sum = d.faces.length ∧
    d.morphs = [m] ∧ convertObjects d = some os ∧ t ∈ os ∧ t.target = true ∧ t.name = m.name ∧
    ¬ Touches d 0 0 ∧
    t.faces.map (OutFace.look t.verts) ≠ [(srcLook (morphed d m) (fun _ => 0) 0).bare] ∧
    t.verts[0]? = some ⟨0, 7, 0⟩ := by
  refine ⟨unusedSample, ⟨['m'], [(1, ⟨5, 0, 0⟩), (3, ⟨0, 7, 0⟩)], []⟩, _,
    ⟨['m'], [⟨0, 7, 0⟩, ⟨6, 0, 0⟩, ⟨0, 1, 0⟩],
      [⟨[0, 1, 2], 0, [⟨0, 0⟩, ⟨0, 0⟩, ⟨0, 0⟩], []⟩],
      [(0, 0), (1, 1), (2, 2)], true⟩,
    ⟨by decide, by decide⟩, by decide, rfl, rfl, ?_, rfl, rfl, ?_, by decide, rfl⟩
  · exact List.mem_of_getElem? (i := 1) rfl
  · rintro ⟨m, hm, h⟩
    simp only [unusedSample, List.getElem?_cons_zero, Option.some.injEq] at hm
    subst hm
    simp at h

/-- The conversion stops if the materials claim more faces than there are. -/
example : convertObjects { groupSample with materials := [⟨[], 12⟩] } = none := by decide

example : ValidMmd groupSample ∧
    (groupSample.materials.map fun m => m.count / 3).sum = groupSample.faces.length :=
  ⟨⟨by decide, by decide⟩, by decide⟩

end Verif.Conv
