import Verif.Mqo.TextProps

/-! C112: the ids of vertices after saving (mqo/mqo_writer.go:175-190, mqo/mqo_parser.go:316-323). -/

namespace Verif.Mqo

open Verif.Geom Verif.Text

variable {F : Type}

theorem setKey_lookup {κ α : Type} [DecidableEq κ] (k : κ) (a : α) (m : List (κ × α)) (k' : κ) :
    (setKey k a m).lookup k' = if k' = k then some a else m.lookup k' := by
  induction m with
  | nil =>
    by_cases h : k' = k
    · subst h; simp [setKey]
    · have hb : (k' == k) = false := by simpa using h
      simp [setKey, List.lookup_cons, hb, h]
  | cons p m ih =>
    obtain ⟨a1, b1⟩ := p
    simp only [setKey]
    split
    · rename_i e
      subst e
      by_cases h : k' = a1
      · subst h; simp
      · have hb : (k' == a1) = false := by simpa using h
        simp [List.lookup_cons, hb, h]
    · rename_i e
      by_cases h : k' = a1
      · subst h
        simp [e]
      · have hb : (k' == a1) = false := by simpa using h
        simp only [List.lookup_cons, hb, ih]

/-- One id per vertex, written in order: an id denotes the last vertex it was written for. -/
theorem ids_lookup (u : Nat → Int) (n : Nat) :
    (∀ i < n, (∀ j < n, i < j → u j ≠ u i) →
      ((List.range n).foldl (fun m i => setKey (u i) (i : Int) m) []).lookup (u i) = some (i : Int)) ∧
    ∀ k, (∀ i < n, u i ≠ k) → ((List.range n).foldl (fun m i => setKey (u i) (i : Int) m) []).lookup k = none := by
  induction n with
  | zero => simp
  | succ n ih =>
    simp only [List.range_succ, List.foldl_append, List.foldl_cons, List.foldl_nil, setKey_lookup]
    constructor
    · intro i hi h
      by_cases he : i = n
      · subst he; simp
      · rw [if_neg (fun e => h n (by omega) (by omega) e.symm)]
        exact ih.1 i (by omega) (fun j hj hij => h j (by omega) hij)
    · intro k hk
      rw [if_neg (fun e => hk n (by omega) e.symm)]
      exact ih.2 k (fun i hi => hk i (by omega))

theorem uidOf_none (m : List (Int × Int)) (i : Nat) (h : ∀ p ∈ m, p.2 ≠ (i : Int)) : uidOf m i = 0 := by
  unfold uidOf
  have : ∀ acc, m.foldl (fun u p => if p.2 = (i : Int) then p.1 else u) acc = acc := by
    induction m with
    | nil => intro acc; rfl
    | cons p m ih =>
      intro acc
      rw [List.foldl_cons, if_neg (h p (by simp))]
      exact ih (fun q hq => h q (by simp [hq])) acc
  exact this 0

theorem uidOf_mem (m : List (Int × Int)) (i : Nat) (uid : Int) (hn : (m.map (·.2)).Nodup) (h : (uid, (i : Int)) ∈ m) :
    uidOf m i = uid := by
  unfold uidOf
  have : ∀ acc, m.foldl (fun u p => if p.2 = (i : Int) then p.1 else u) acc = uid := by
    induction m with
    | nil => simp at h
    | cons p m ih =>
      intro acc
      rw [List.map_cons, List.nodup_cons] at hn
      rcases List.mem_cons.mp h with rfl | h
      · rw [List.foldl_cons, if_pos rfl]
        have hk : ∀ q ∈ m, q.2 ≠ (i : Int) := fun q hq e => hn.1 (List.mem_map.mpr ⟨q, hq, e⟩)
        clear ih hn h
        induction m with
        | nil => rfl
        | cons q m ih2 =>
          rw [List.foldl_cons, if_neg (hk q (by simp))]
          exact ih2 (fun q hq => hk q (by simp [hq]))
      · exact ih hn.2 h _
  exact this 0

theorem lookup_mem (m : List (Int × Int)) (k v : Int) (h : m.lookup k = some v) : (k, v) ∈ m := by
  induction m with
  | nil => simp at h
  | cons p m ih =>
    obtain ⟨a, b⟩ := p
    rw [List.lookup_cons] at h
    by_cases e : k = a
    · subst e
      simp at h
      simp [h]
    · have hb : (k == a) = false := by simpa using e
      rw [hb] at h
      exact List.mem_cons_of_mem _ (ih h)

/-- A table of vertex ids as the format carries it: each vertex has at most one id, which is not 0, ids are
for existing vertices, and where the number of a vertex (from 1 up) is used as id, that vertex has an id of its
own. -/
structure IDsOk (o : Object F) : Prop where
  keys : (o.vertexByUID.map (·.1)).Nodup
  values : (o.vertexByUID.map (·.2)).Nodup
  nonzero : ∀ p ∈ o.vertexByUID, p.1 ≠ 0
  range : ∀ p ∈ o.vertexByUID, 0 ≤ p.2 ∧ p.2 < o.vertexes.length
  free : ∀ p ∈ o.vertexByUID, 1 ≤ p.1 → p.1 ≤ o.vertexes.length → ∃ q ∈ o.vertexByUID, q.2 = p.1 - 1

theorem mem_unique (m : List (Int × Int)) (h : (m.map (·.1)).Nodup) (k v w : Int) (h1 : (k, v) ∈ m) (h2 : (k, w) ∈ m) :
    v = w := by
  induction m with
  | nil => simp at h1
  | cons p m ih =>
    rw [List.map_cons, List.nodup_cons] at h
    rcases List.mem_cons.mp h1 with e1 | h1 <;> rcases List.mem_cons.mp h2 with e2 | h2
    · exact (Prod.mk.inj (e1.trans e2.symm)).2
    · exact absurd (List.mem_map.mpr ⟨_, h2, by rw [← e1]⟩) h.1
    · exact absurd (List.mem_map.mpr ⟨_, h1, by rw [← e2]⟩) h.1
    · exact ih h.2 h1 h2

/-- The written id of a vertex: its own, or its number. -/
theorem uidLine_spec (o : Object F) (h : IDsOk o) (i : Nat) :
    (∃ uid, (uid, (i : Int)) ∈ o.vertexByUID ∧ uidLine o.vertexByUID i = uid) ∨
    ((∀ p ∈ o.vertexByUID, p.2 ≠ (i : Int)) ∧ uidLine o.vertexByUID i = (i : Int) + 1) := by
  by_cases hi : ∃ p ∈ o.vertexByUID, p.2 = (i : Int)
  · obtain ⟨⟨uid, v⟩, hp, rfl⟩ := hi
    left
    refine ⟨uid, hp, ?_⟩
    have := uidOf_mem _ i uid h.values hp
    simp only [uidLine, this]
    rw [if_neg (h.nonzero _ hp)]
  · right
    have hi' : ∀ p ∈ o.vertexByUID, p.2 ≠ (i : Int) := fun p hp e => hi ⟨p, hp, e⟩
    refine ⟨hi', ?_⟩
    simp [uidLine, uidOf_none _ i hi']

section
variable [Zero F] [One F] [Neg F] [Mul F] [NumText F] [NumLaws F]

theorem normObject_vertexID [DecidableEq F] (o : Object F) (h : IDsOk o) (uid : Int) :
    (normObject o).getVertexIndexByID uid = o.getVertexIndexByID uid := by
  have hv : (normObject o).vertexes = o.vertexes := rfl
  have hu : (normObject o).vertexByUID = normUIDs o := rfl
  unfold Object.getVertexIndexByID
  rw [hu, hv]
  unfold normUIDs
  by_cases hl : 0 < o.vertexByUID.length
  swap
  · rw [if_neg hl]
    have : o.vertexByUID = [] := List.length_eq_zero_iff.mp (by omega)
    rw [this]
  rw [if_pos hl]
  obtain ⟨k1, k2⟩ := ids_lookup (uidLine o.vertexByUID) o.vertexes.length
  -- the written ids are distinct
  have hinj : ∀ i < o.vertexes.length, ∀ j < o.vertexes.length, uidLine o.vertexByUID i = uidLine o.vertexByUID j → i = j := by
    intro i hi j hj e
    rcases uidLine_spec o h i with ⟨a, ha, ea⟩ | ⟨ha, ea⟩ <;> rcases uidLine_spec o h j with ⟨b, hb, eb⟩ | ⟨hb, eb⟩
    · rw [ea, eb] at e
      subst e
      have := mem_unique _ h.keys _ _ _ ha hb
      omega
    · rw [ea, eb] at e
      subst e
      obtain ⟨q, hq, e⟩ := h.free _ ha (by simp) (by simp; omega)
      exact absurd (e.trans (by simp)) (hb q hq)
    · rw [ea, eb] at e
      subst e
      obtain ⟨q, hq, e⟩ := h.free _ hb (by simp) (by simp; omega)
      exact absurd (e.trans (by simp)) (ha q hq)
    · omega
  by_cases hex : ∃ i, i < o.vertexes.length ∧ uidLine o.vertexByUID i = uid
  · obtain ⟨i, hi, rfl⟩ := hex
    rw [k1 i hi (fun j hj hij e => by have := hinj j hj i hi e; omega)]
    simp only
    rcases uidLine_spec o h i with ⟨a, ha, ea⟩ | ⟨ha, ea⟩
    · rw [ea]
      cases hlk : o.vertexByUID.lookup a with
      | some v => exact mem_unique _ h.keys _ _ _ ha (lookup_mem _ _ _ hlk)
      | none =>
        have := List.lookup_eq_none_iff.mp hlk _ ha
        simp at this
    · rw [ea]
      cases hlk : o.vertexByUID.lookup ((i : Int) + 1) with
      | some v =>
        obtain ⟨q, hq, e⟩ := h.free _ (lookup_mem _ _ _ hlk) (by simp) (by simp; omega)
        exact absurd (e.trans (by simp)) (ha q hq)
      | none =>
        simp only
        rw [if_pos (by omega)]
        omega
  · have hno : ∀ i < o.vertexes.length, uidLine o.vertexByUID i ≠ uid := fun i hi e => hex ⟨i, hi, e⟩
    rw [k2 uid hno]
    cases hlk : o.vertexByUID.lookup uid with
    | none => rfl
    | some v =>
      exfalso
      have hm := lookup_mem _ _ _ hlk
      obtain ⟨r1, r2⟩ := h.range _ hm
      simp only at r1 r2
      rcases uidLine_spec o h v.toNat with ⟨a, ha, ea⟩ | ⟨ha, _⟩
      · have hvn : ((v.toNat : Nat) : Int) = v := Int.toNat_of_nonneg r1
        have e2 := uidOf_mem _ v.toNat uid h.values (by rw [hvn]; exact hm)
        have e3 := uidOf_mem _ v.toNat a h.values ha
        refine hno v.toNat (by omega) ?_
        rw [ea, ← e3, e2]
      · exact ha _ hm (Int.toNat_of_nonneg r1).symm

/-- C112: every id, of whatever value, denotes the same vertex (or none) after writing and parsing. Missing:
tables in which the number of a vertex without id is the id of another one. -/
theorem vertexID_saved_partial [Uni] [DecidableEq F] [FloatOps F] (d : Document F) (hd : DocOk d)
    (h : ∀ o ∈ d.objects, IDsOk o) :
    ∃ d' : Document F, parse (write d) = some (d', 0) ∧
      List.Forall₂ (fun o o' => ∀ uid, o'.getVertexIndexByID uid = o.getVertexIndexByID uid) d.objects d'.objects := by
  refine ⟨normDoc d, write_parse d hd, ?_⟩
  show List.Forall₂ _ d.objects (d.objects.map normObject)
  rw [List.forall₂_map_right_iff, List.forall₂_same]
  exact fun o ho uid => normObject_vertexID o (h o ho) uid

/-- C112 is false of the code: when only the first vertex has an id and it is the number of the second one, the
second vertex is written with the same id, which denotes the second vertex after parsing. -/
theorem vertexID_saved_false [Uni] [DecidableEq F] [FloatOps F] (d : Document F) (hd : DocOk d) (o : Object F)
    (ho : d.objects = [o]) (hv : 2 ≤ o.vertexes.length) (hu : o.vertexByUID = [(2, 0)]) :
    ∃ o' : Object F, (parse (F := F) (write d)).map (·.1.objects) = some [o'] ∧
      o.getVertexIndexByID 2 = 0 ∧ o'.getVertexIndexByID 2 = 1 := by
  refine ⟨normObject o, ?_, ?_, ?_⟩
  · rw [write_parse d hd]
    simp [normDoc, ho]
  · simp [Object.getVertexIndexByID, hu]
  · obtain ⟨k1, _⟩ := ids_lookup (uidLine o.vertexByUID) o.vertexes.length
    have hlow : ∀ j, 0 < j → uidLine o.vertexByUID j = (j : Int) + 1 := by
      intro j hj
      have : ¬ (0 : Int) = (j : Int) := by omega
      simp [uidLine, uidOf, hu, this]
    have h2 := k1 1 (by omega) (fun j _ hj => by rw [hlow j (by omega), hlow 1 (by omega)]; omega)
    rw [hlow 1 (by omega)] at h2
    have e : (normObject o).vertexByUID.lookup 2 = some 1 := by
      show (normUIDs o).lookup 2 = some 1
      unfold normUIDs
      rw [if_pos (by rw [hu]; decide)]
      exact h2
    simp [Object.getVertexIndexByID, e]

end

/-- The hypotheses of `vertexID_saved_partial` hold for the example document, and for a table in which the
number of a vertex is the id of another one. -/
example : IDsOk exObject ∧ IDsOk ({ exObject with vertexByUID := [(3, 0), (9, 2)] } : Object Int) :=
  ⟨⟨by decide, by decide, by decide, by decide, by decide⟩, ⟨by decide, by decide, by decide, by decide, by decide⟩⟩

/-! The hypotheses of `vertexID_saved_false` hold for a document: the example behind `exDoc_ok` in TextProps. -/

end Verif.Mqo
