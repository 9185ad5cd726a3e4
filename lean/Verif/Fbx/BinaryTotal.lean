import Verif.Fbx.Binary

/-!
C76: the binary reader returns on every input — `parse` never runs out of fuel.
-/

namespace Verif.Fbx

open Verif.Mmd (Bytes ofLe leBytes toSigned)

/-- Position and offset agree on seekable input, and the position is never negative. -/
def BR.Sync (s : BR) : Prop := s.seek = true → s.pos = s.real

/-- `s'` is a later state of the same run: same input, offset not smaller. -/
structure Later (s s' : BR) : Prop where
  data : s'.data = s.data
  seek : s'.seek = s.seek
  version : s'.version = s.version
  real : s.real ≤ s'.real
  sync : s.Sync → s'.Sync

theorem Later.refl (s : BR) : Later s s := ⟨rfl, rfl, rfl, Nat.le_refl _, id⟩

theorem Later.trans {a b c : BR} (h : Later a b) (g : Later b c) : Later a c :=
  ⟨g.data.trans h.data, g.seek.trans h.seek, g.version.trans h.version, Nat.le_trans h.real g.real,
    fun x => g.sync (h.sync x)⟩

theorem later_read (s : BR) (n : Nat) : Later s (s.read n).2 := by
  unfold BR.read
  split
  · exact .refl s
  · split
    · refine ⟨rfl, rfl, rfl, by simp, ?_⟩
      intro h hs
      have := h hs
      simp only at this ⊢
      omega
    · simp only
      split
      · exact .refl s
      · refine ⟨rfl, rfl, rfl, by simp, ?_⟩
        intro h hs
        have := h hs
        simp only at this ⊢
        omega

theorem later_readLE (s : BR) (n : Nat) : Later s (s.readLE n).2 := by
  have := later_read s n
  unfold BR.readLE
  split <;> simp_all

theorem later_readString (s : BR) (n : Nat) : Later s (s.readString n).2 := by
  have := later_read s n
  unfold BR.readString
  split <;> simp_all

theorem later_readField (s : BR) : Later s s.readField.2 := by
  unfold BR.readField
  split <;> exact later_readLE s _

theorem later_skipTo (s : BR) (p : Int) (h : s.Sync) : Later s (s.skipTo p).2 := by
  unfold BR.skipTo
  split
  · exact .refl s
  · split
    · rename_i h1 h2
      have := h h2
      refine ⟨rfl, rfl, rfl, ?_, ?_⟩
      · simp only; omega
      · intro _ _; simp only; omega
    · rename_i h1 h2
      refine ⟨rfl, rfl, rfl, by simp, ?_⟩
      intro _ hs
      exact absurd hs h2

theorem later_err {s s' : BR} (h : Later s s') (e : Option Err) :
    Later s { s' with err := e } := ⟨h.data, h.seek, h.version, h.real, h.sync⟩

theorem later_readElems (z : Zlib) (s : BR) (w c e sz : Nat) (h : s.Sync) :
    Later s (readElems z s w c e sz).2 := by
  unfold readElems
  split
  · have := later_read s (c * w)
    split <;> simp_all
  · simp only
    generalize z.used _ _ = u
    have h1 : Later s { s with real := s.real + u, pos := s.pos + u } := by
      refine ⟨rfl, rfl, rfl, by simp, ?_⟩
      intro h hs
      have := h hs
      simp only at this ⊢
      omega
    split
    · exact later_err h1 _
    · rename_i e' _
      have h2 : Later s
          { data := s.data, seek := s.seek, real := s.real + u, pos := s.pos + u,
            version := s.version, err := some (s.err.getD e') } := later_err h1 _
      exact h2.trans (later_skipTo _ _ (h2.sync h))
    · exact h1.trans (later_skipTo _ _ (h1.sync h))

theorem later_readPropArray (z : Zlib) (s : BR) (ty : NumTy) (h : s.Sync) :
    Later s (readPropArray z s ty).2 := by
  unfold readPropArray
  simp only
  have h1 := later_readLE s 4
  have h2 := later_readLE (s.readLE 4).2 4
  have h3 := later_readLE ((s.readLE 4).2.readLE 4).2 4
  have h123 := (h1.trans h2).trans h3
  exact h123.trans (later_readElems z _ _ _ _ _ (h123.sync h))

theorem later_readProp (z : Zlib) (s : BR) (h : s.Sync) : Later s (readProp z s).2 := by
  unfold readProp
  simp only
  have h1 := later_readLE s 1
  split
  · exact h1.trans (later_readLE _ _)
  · split
    · exact (h1.trans (later_readLE _ _)).trans (later_readString _ _)
    · split
      · exact (h1.trans (later_readLE _ _)).trans (later_readString _ _)
      · split
        · exact h1.trans (later_readPropArray z _ _ (h1.sync h))
        · exact later_err h1 _

theorem later_readProps (z : Zlib) (n : Nat) (s : BR) (h : s.Sync) :
    Later s (readProps z n s).2 := by
  induction n generalizing s with
  | zero => exact .refl s
  | succ n ih =>
    unfold readProps
    split
    · exact .refl s
    · simp only
      have h1 := later_readProp z s h
      exact h1.trans (ih _ (h1.sync h))

/-- A read that is not followed by an error took its bytes from inside the input. -/
theorem read_progress (s : BR) (n : Nat) (hn : 0 < n) (h : (s.read n).2.err = none) :
    (s.read n).2.real = s.real + n ∧ s.real + n ≤ s.data.length ∧ s.err = none := by
  unfold BR.read at h ⊢
  split at h
  · rename_i e he
    simp [he] at h
  · rename_i he
    split at h
    · rename_i hle
      simp [he, hle]
    · rw [if_neg (by omega)] at h
      simp at h

theorem readLE_state (s : BR) (n : Nat) : (s.readLE n).2 = (s.read n).2 := by
  unfold BR.readLE
  split <;> simp_all

theorem readString_state (s : BR) (n : Nat) : (s.readString n).2 = (s.read n).2 := by
  unfold BR.readString
  split <;> simp_all

/-- An error stays through a read. -/
theorem read_err (s : BR) (n : Nat) (h : s.err ≠ none) : (s.read n).2.err ≠ none := by
  unfold BR.read
  cases he : s.err with
  | none => exact absurd he h
  | some e => simp [he]

theorem field_state (s : BR) :
    s.readField.2 = (s.read (if 7500 ≤ s.version then 8 else 4)).2 := by
  unfold BR.readField
  split <;> simp [readLE_state]

/-- The state after reading a record header and name. -/
def afterHeader (s : BR) : BR :=
  let s3 := s.readField.2.readField.2.readField.2
  ((s3.readLE 1).2.readString (s3.readLE 1).1).2

theorem later_afterHeader (s : BR) : Later s (afterHeader s) :=
  ((((later_readField s).trans (later_readField _)).trans (later_readField _)).trans
    (later_readLE _ 1)).trans (later_readString _ _)

/-- A header that is read without error takes at least 13 bytes of the input. -/
theorem header_progress (s : BR) (h : (afterHeader s).err = none) :
    s.real + 13 ≤ (afterHeader s).real ∧ s.real + 13 ≤ s.data.length := by
  have l1 := later_readField s
  have l2 := later_readField s.readField.2
  have l3 := later_readField s.readField.2.readField.2
  have l4 := later_readLE s.readField.2.readField.2.readField.2 1
  unfold afterHeader at h ⊢
  simp only at h ⊢
  have l5 := later_readString (s.readField.2.readField.2.readField.2.readLE 1).2
    (s.readField.2.readField.2.readField.2.readLE 1).1
  rw [readString_state] at h
  have e4 : (s.readField.2.readField.2.readField.2.readLE 1).2.err = none := by
    by_contra hc
    exact read_err _ _ hc h
  rw [readLE_state] at e4
  have p4 := read_progress _ 1 (by omega) e4
  have e3 := p4.2.2
  rw [field_state] at e3
  have p3 := read_progress _ _ (by split <;> omega) e3
  have e2 := p3.2.2
  rw [field_state] at e2
  have p2 := read_progress _ _ (by split <;> omega) e2
  have e1 := p2.2.2
  rw [field_state] at e1
  have p1 := read_progress _ _ (by split <;> omega) e1
  rw [← field_state] at p1 p2 p3
  rw [← readLE_state] at p4
  have d1 := l1.data
  have d2 := l2.data
  have d3 := l3.data
  have r5 := l5.real
  have q1 := p1.1
  have q2 := p2.1
  have q3 := p3.1
  have q4 := p4.1
  have b4 := p4.2.1
  rw [d3, d2, d1] at b4
  have w1 : 4 ≤ (if 7500 ≤ s.version then 8 else 4 : Nat) := by split <;> omega
  have w2 : 4 ≤ (if 7500 ≤ s.readField.2.version then 8 else 4 : Nat) := by split <;> omega
  have w3 : 4 ≤ (if 7500 ≤ s.readField.2.readField.2.version then 8 else 4 : Nat) := by
    split <;> omega
  omega

/-- A header field that is not zero has been read from inside the input. -/
theorem field_progress (s : BR) (h : s.readField.1 ≠ 0) :
    s.real + 4 ≤ s.readField.2.real ∧ s.real + 4 ≤ s.data.length := by
  have key : ∀ n, (s.readLE n).1 ≠ 0 →
      s.real + n ≤ (s.readLE n).2.real ∧ s.real + n ≤ s.data.length := by
    intro n hn
    unfold BR.readLE BR.read at hn ⊢
    cases he : s.err with
    | some e => simp [he] at hn
    | none =>
      simp only [he] at hn ⊢
      by_cases hle : s.real + n ≤ s.data.length
      · simp [hle]
      · simp only [hle, if_false] at hn ⊢
        by_cases h0 : n = 0
        · simp [h0, ofLe] at hn
        · simp [h0] at hn
  unfold BR.readField at h ⊢
  split at h
  · rename_i hv
    have h8 : (s.readLE 8).1 ≠ 0 := by
      intro e; simp [e, toSigned] at h
    have := key 8 h8
    simp only [hv, if_true]
    omega
  · rename_i hv
    have h4 : (s.readLE 4).1 ≠ 0 := by
      intro e; simp [e] at h
    have := key 4 h4
    simp only [hv, if_false]
    omega

/-- Bytes still to come. -/
def BR.left (s : BR) : Nat := s.data.length - s.real

theorem Later.left {s s' : BR} (h : Later s s') : s'.left ≤ s.left := by
  unfold BR.left
  rw [h.data]
  have := h.real
  omega

/-- What the reader of nodes guarantees for a given fuel. -/
theorem read_total (z : Zlib) (fuel : Nat) :
    (∀ s : BR, s.Sync → s.left + 3 ≤ fuel →
      ∃ c s', readNode z fuel s = some (c, s') ∧ Later s s' ∧
        (s'.err = none → s'.left + 1 ≤ s.left)) ∧
    (∀ (s : BR) (next : Int), s.Sync → (s.err = none → s.left + 4 ≤ fuel) → 1 ≤ fuel →
      ∃ cs s', readChildren z fuel next s = some (cs, s') ∧ Later s s') := by
  induction fuel with
  | zero => exact ⟨fun s _ h => by omega, fun s _ _ _ h => by omega⟩
  | succ f ih =>
    constructor
    · intro s hs hl
      have hh := later_afterHeader s
      have hp := header_progress s
      have hf1 := field_progress s
      have hf2 := field_progress s.readField.2
      have l1 := later_readField s
      have l2 := later_readField s.readField.2
      have l3 := ((later_readField s.readField.2.readField.2).trans (later_readLE _ 1)).trans
        (later_readString _ (s.readField.2.readField.2.readField.2.readLE 1).1)
      have hd2 := l1.data
      unfold readNode
      unfold afterHeader at hh hp
      simp only at hh hp ⊢
      generalize s.readField = r1 at *
      obtain ⟨next, s1⟩ := r1
      simp only at *
      generalize s1.readField = r2 at *
      obtain ⟨nprop, s2⟩ := r2
      simp only at *
      generalize s2.readField = r3 at *
      obtain ⟨propsz, s3⟩ := r3
      simp only at *
      generalize s3.readLE 1 = r4 at *
      obtain ⟨nl, s4⟩ := r4
      simp only at *
      generalize s4.readString nl = r5 at *
      obtain ⟨name, t⟩ := r5
      simp only at *
      have ht := hh.sync hs
      have r12 := l1.real
      have r23 := l2.real
      have r3t := l3.real
      have hdt := hh.data
      have hnext : next ≠ 0 → s.real + 4 ≤ t.real ∧ s.real + 4 ≤ s.data.length := by
        intro h; have := hf1 h; omega
      have hnprop : nprop ≠ 0 → s.real + 4 ≤ t.real ∧ s.real + 4 ≤ s.data.length := by
        intro h; have := hf2 h; rw [hd2] at this; omega
      have hleft : s.real + 4 ≤ t.real ∧ s.real + 4 ≤ s.data.length → t.left + 4 ≤ s.left := by
        intro h; unfold BR.left; rw [hdt]; omega
      split
      · rename_i hinv
        have h0 : nprop ≠ 0 := by
          rintro rfl; simp [u64] at hinv
        have hk := later_skipTo t next ht
        refine ⟨_, _, rfl, later_err (hh.trans hk) _, ?_⟩
        intro _
        have h1 := hleft (hnprop h0)
        have h2 := hk.left
        change (t.skipTo next).2.left + 1 ≤ s.left
        omega
      · split
        · refine ⟨_, _, rfl, hh, ?_⟩
          intro he
          have := hp he
          unfold BR.left; rw [hdt]; omega
        · rename_i hne
          have hlt := hleft (hnext hne)
          have hpr := later_readProps z nprop.toNat t ht
          generalize readProps z nprop.toNat t = rp at *
          obtain ⟨attrs, u⟩ := rp
          simp only at *
          have hu := hpr.sync ht
          have hul := hpr.left
          have hsu := hh.trans hpr
          split
          · rename_i herr
            exact ⟨_, _, rfl, hsu, by intro he; rw [herr] at he; simp at he⟩
          · obtain ⟨cs, v, hc, hlv⟩ := ih.2 u next hu (fun _ => by omega) (by omega)
            simp only [hc]
            have hv := hlv.sync hu
            have hvl := hlv.left
            have key : ∀ w : BR, Later v w →
                ∃ c s', (if w.err = some Err.other then some (none, w)
                  else some (some (Node.mk name attrs cs), w)) = some (c, s') ∧ Later s s' ∧
                  (s'.err = none → s'.left + 1 ≤ s.left) := by
              intro w hlw
              have hwl := hlw.left
              split
              · exact ⟨_, _, rfl, (hsu.trans hlv).trans hlw, fun _ => by omega⟩
              · exact ⟨_, _, rfl, (hsu.trans hlv).trans hlw, fun _ => by omega⟩
            apply key
            split
            · exact .refl v
            · exact later_err (later_skipTo v next hv) _
    · intro s next hs hl _
      unfold readChildren
      split
      · rename_i hc
        have hl := hl hc.2
        obtain ⟨c, s1, h1, hl1, hp1⟩ := ih.1 s hs (by omega)
        simp only [h1]
        obtain ⟨cs, s2, h2, hl2⟩ := ih.2 s1 next (hl1.sync hs)
          (fun he => by have := hp1 he; omega) (by omega)
        simp only [h2]
        exact ⟨_, _, rfl, hl1.trans hl2⟩
      · exact ⟨_, _, rfl, .refl s⟩

theorem readRoots_total (z : Zlib) (fuel : Nat) (s : BR) (hs : s.Sync)
    (hl : s.err = none → s.left + 4 ≤ fuel) (h1 : 1 ≤ fuel) :
    ∃ cs s', readRoots z fuel s = some (cs, s') := by
  induction fuel generalizing s with
  | zero => omega
  | succ f ih =>
    unfold readRoots
    cases he : s.err with
    | some e => exact ⟨_, _, rfl⟩
    | none =>
      have hl := hl he
      obtain ⟨c, s1, h2, hl1, hp1⟩ := (read_total z f).1 s hs (by omega)
      simp only [h2]
      obtain ⟨cs, s2, h3⟩ := ih s1 (hl1.sync hs) (fun he => by have := hp1 he; omega) (by omega)
      simp only [h3]
      exact ⟨_, _, rfl⟩

/-- C76. The binary reader returns on every input, seekable or not, whatever the decompressor
does: no sequence of bytes makes it loop or recurse forever. -/
theorem parse_total (z : Zlib) (seek : Bool) (data : Bytes) : ∃ r, parse z seek data = some r := by
  unfold parse
  simp only
  split
  · split <;> exact ⟨_, rfl⟩
  · have hs0 : (BR.mk data seek 0 0 0 none).Sync := fun _ => rfl
    have l1 := later_readString (BR.mk data seek 0 0 0 none) 21
    generalize (BR.mk data seek 0 0 0 none).readString 21 = r1 at *
    obtain ⟨m, s1⟩ := r1
    have l2 := later_readLE s1 2
    generalize s1.readLE 2 = r2 at *
    obtain ⟨x, s2⟩ := r2
    have l3 := later_readLE s2 4
    generalize s2.readLE 4 = r3 at *
    obtain ⟨v, s3⟩ := r3
    simp only at *
    have l := (l1.trans l2).trans l3
    obtain ⟨cs, s', h⟩ := readRoots_total z (data.length + 5)
      { s3 with version := v } (fun h => l.sync hs0 h) (fun _ => by
        have hd : s3.data = data := l.data
        unfold BR.left
        simp only [hd]; omega) (by omega)
    rw [h]
    simp only
    split <;> exact ⟨_, rfl⟩

end Verif.Fbx
