import Verif.Gltf.Joints
import Mathlib.Data.List.Basic

/-!
C47: `FixJointComponentType` (gltfutil/gltf_joint.go:94-126).
-/

namespace Verif.Gltf

/-- The bytes of a buffer view, if it lies inside its buffer. -/
def viewBytes (d : JDoc) (v : Nat) : Option (List UInt8) :=
  match d.views[v]? with
  | none => none
  | some view =>
    match d.bufs[view.buffer]? with
    | none => none
    | some buf =>
      if view.offset + view.length ≤ buf.data.length then some ((buf.data.drop view.offset).take view.length) else none

/-- Component `c` of element `k` of an accessor of four joints, as the glTF specification reads it: bytes
(type 2) or little-endian 16 bit numbers (type 4); stride 0 means tightly packed. -/
def readJoint (d : JDoc) (a k c : Nat) : Option Nat :=
  match d.accs[a]? with
  | none => none
  | some acc =>
    match acc.view with
    | none => none
    | some v =>
      match d.views[v]?, viewBytes d v with
      | some view, some bytes =>
        if acc.ctype = 2 then
          (bytes[acc.offset + k * (if view.stride = 0 then 4 else view.stride) + c]?).map (·.toNat)
        else if acc.ctype = 4 then
          match bytes[acc.offset + k * (if view.stride = 0 then 8 else view.stride) + 2 * c]?,
            bytes[acc.offset + k * (if view.stride = 0 then 8 else view.stride) + 2 * c + 1]? with
          | some lo, some hi => some (lo.toNat + 256 * hi.toNat)
          | _, _ => none
        else none
      | _, _ => none

theorem widen_length (l : List UInt8) : (widen l).length = l.length * 2 := by
  induction l with
  | nil => rfl
  | cons b l ih => simp only [widen, List.flatMap_cons, List.length_append, List.length_cons, List.length_nil] at ih ⊢; omega

theorem widen_get (l : List UInt8) (i : Nat) :
    (widen l)[2 * i]? = l[i]? ∧ (widen l)[2 * i + 1]? = (l[i]?).map fun _ => 0 := by
  induction l generalizing i with
  | nil => simp [widen]
  | cons b l ih =>
    have e : widen (b :: l) = b :: 0 :: widen l := rfl
    rw [e]
    cases i with
    | zero => simp
    | succ i =>
      have := ih i
      rw [show 2 * (i + 1) = 2 * i + 1 + 1 by omega]
      simpa using this

/-- What has happened so far: `fixed` are the widened views. -/
structure FixInv (d0 d : JDoc) (fixed : List Nat) : Prop where
  accs : ∀ j : Nat, d.accs[j]? = d0.accs[j]? ∨ ∃ acc v, d0.accs[j]? = some acc ∧ acc.ctype = 2 ∧
    d.accs[j]? = some { acc with ctype := 4 } ∧ acc.view = some v ∧ v ∈ fixed
  same : ∀ v, v ∉ fixed → d.views[v]? = d0.views[v]?
  bufs : ∀ (b : Nat) (buf : Buf), d0.bufs[b]? = some buf → ∃ ext, d.bufs[b]? = some ⟨buf.data ++ ext, buf.length + ext.length⟩
  count : d.bufs.length = d0.bufs.length
  wide : ∀ v ∈ fixed, ∃ view off bytes, d0.views[v]? = some view ∧ viewBytes d0 v = some bytes ∧
    d.views[v]? = some ⟨view.buffer, off, view.length * 2, view.stride * 2⟩ ∧ viewBytes d v = some (widen bytes)

theorem take_drop_append {α : Type} (l ext : List α) (o n : Nat) (h : o + n ≤ l.length) :
    ((l ++ ext).drop o).take n = (l.drop o).take n := by
  rw [List.drop_append_of_le_length (by omega), List.take_append_of_le_length (by simp; omega)]

/-- Views that are not widened keep their bytes. -/
theorem FixInv.bytes {d0 d : JDoc} {fixed : List Nat} (h : FixInv d0 d fixed) (v : Nat) (hv : v ∉ fixed)
    (bytes : List UInt8) (hb : viewBytes d0 v = some bytes) : viewBytes d v = some bytes := by
  unfold viewBytes at hb ⊢
  rw [h.same v hv]
  cases e : d0.views[v]? with
  | none => rw [e] at hb; simp at hb
  | some view =>
    rw [e] at hb
    simp only at hb ⊢
    cases e2 : d0.bufs[view.buffer]? with
    | none => rw [e2] at hb; simp at hb
    | some buf =>
      rw [e2] at hb
      simp only at hb
      split at hb
      · rename_i hle
        obtain ⟨ext, he⟩ := h.bufs _ _ e2
        rw [he]
        simp only
        rw [if_pos (by simp; omega), take_drop_append _ _ _ _ hle]
        exact hb
      · simp at hb

/-- Appending to a buffer keeps the bytes of the views. -/
theorem viewBytes_append (d : JDoc) (b : Nat) (buf : Buf) (hb : d.bufs[b]? = some buf) (ext : List UInt8) (n : Nat)
    (v : Nat) (bytes : List UInt8) (h : viewBytes d v = some bytes) (views : List BufView)
    (hv : views[v]? = d.views[v]?) (accs : List Acc) :
    viewBytes ⟨accs, views, d.bufs.set b ⟨buf.data ++ ext, n⟩⟩ v = some bytes := by
  unfold viewBytes at h ⊢
  simp only [hv]
  cases e : d.views[v]? with
  | none => rw [e] at h; simp at h
  | some view =>
    rw [e] at h
    simp only at h ⊢
    by_cases hbb : b = view.buffer
    · subst hbb
      rw [List.getElem?_set_self (List.getElem?_eq_some_iff.mp hb).1]
      rw [hb] at h
      simp only at h ⊢
      split at h
      · rename_i hle
        rw [if_pos (by simp; omega), take_drop_append _ _ _ _ hle]
        exact h
      · simp at h
    · rw [List.getElem?_set_ne hbb]
      exact h

/-- The attributes refer to existing data. -/
def AttrsOk (d : JDoc) (as : List Nat) : Prop :=
  ∀ a ∈ as, ∃ acc, d.accs[a]? = some acc ∧ (acc.ctype = 2 → ∃ v bytes, acc.view = some v ∧ viewBytes d v = some bytes)

theorem viewBytes_some {d : JDoc} {v : Nat} {bytes : List UInt8} (h : viewBytes d v = some bytes) :
    ∃ view buf, d.views[v]? = some view ∧ d.bufs[view.buffer]? = some buf ∧
      view.offset + view.length ≤ buf.data.length ∧ bytes = (buf.data.drop view.offset).take view.length := by
  unfold viewBytes at h
  cases e : d.views[v]? with
  | none => rw [e] at h; simp at h
  | some view =>
    rw [e] at h
    simp only at h
    cases e2 : d.bufs[view.buffer]? with
    | none => rw [e2] at h; simp at h
    | some buf =>
      rw [e2] at h
      simp only at h
      split at h
      · rename_i hle
        exact ⟨view, buf, rfl, e2, hle, (Option.some.inj h).symm⟩
      · simp at h

theorem set_acc_inv (d0 d : JDoc) (fixed fixed' : List Nat) (hsub : ∀ v ∈ fixed, v ∈ fixed') (accs : List Acc) (a : Nat) (acc : Acc) (v : Nat)
    (h0 : d0.accs[a]? = some acc) (ha : d.accs[a]? = some acc) (hc : acc.ctype = 2) (hv : acc.view = some v)
    (hvf : v ∈ fixed') (he : accs = d.accs.set a { acc with ctype := 4 })
    (h : ∀ j : Nat, d.accs[j]? = d0.accs[j]? ∨ ∃ acc v, d0.accs[j]? = some acc ∧ acc.ctype = 2 ∧
      d.accs[j]? = some { acc with ctype := 4 } ∧ acc.view = some v ∧ v ∈ fixed) :
    ∀ j : Nat, accs[j]? = d0.accs[j]? ∨ ∃ acc v, d0.accs[j]? = some acc ∧ acc.ctype = 2 ∧
      accs[j]? = some { acc with ctype := 4 } ∧ acc.view = some v ∧ v ∈ fixed' := by
  intro j
  subst he
  by_cases hj : a = j
  · subst hj
    right
    exact ⟨acc, v, h0, hc, List.getElem?_set_self (List.getElem?_eq_some_iff.mp ha).1, hv, hvf⟩
  · rw [List.getElem?_set_ne hj]
    rcases h j with h | ⟨acc', v', h1, h2, h3, h4, h5⟩
    · exact .inl h
    · exact .inr ⟨acc', v', h1, h2, h3, h4, hsub v' h5⟩

theorem fixAttr_spec (d0 d : JDoc) (fixed : List Nat) (hi : FixInv d0 d fixed) (a : Nat) (ha : AttrsOk d0 [a]) :
    ∃ d' fixed', fixAttr d fixed a = some (d', fixed') ∧ FixInv d0 d' fixed' ∧ (∀ v ∈ fixed, v ∈ fixed') ∧
      (∀ acc, d0.accs[a]? = some acc → acc.ctype = 2 → d'.accs[a]? = some { acc with ctype := 4 }) ∧
      (∀ (j : Nat) (acc : Acc), d0.accs[j]? = some acc → d.accs[j]? = some { acc with ctype := 4 } →
        d'.accs[j]? = some { acc with ctype := 4 }) ∧
      (∀ j : Nat, j ≠ a → d'.accs[j]? = d.accs[j]?) ∧
      (∀ v ∈ fixed', v ∈ fixed ∨ ∃ acc, d0.accs[a]? = some acc ∧ acc.ctype = 2 ∧ acc.view = some v) := by
  obtain ⟨acc, h0, hok⟩ := ha a (by simp)
  rcases hi.accs a with hsame | ⟨acc', v, g1, g2, g3, g4, g5⟩
  · rw [h0] at hsame
    unfold fixAttr
    rw [hsame]
    simp only
    by_cases hc : acc.ctype = 2
    · rw [if_pos hc]
      obtain ⟨v, bytes, hv, hb⟩ := hok hc
      rw [hv]
      have h4 : (⟨some v, acc.offset, 4⟩ : Acc) = { acc with ctype := 4 } := by rw [hv]
      rw [h4]
      simp only
      obtain ⟨view, buf, e1, e2, e3, e4⟩ := viewBytes_some hb
      have hview : ∃ view', d.views[v]? = some view' ∧ view'.buffer = view.buffer := by
        by_cases hf : v ∈ fixed
        · obtain ⟨view', off, _, k1, _, k3, _⟩ := hi.wide v hf
          rw [e1] at k1
          have := Option.some.inj k1
          subst this
          exact ⟨_, k3, rfl⟩
        · exact ⟨view, by rw [hi.same v hf]; exact e1, rfl⟩
      obtain ⟨view', hv1, hv2⟩ := hview
      rw [hv1]
      simp only
      rw [if_pos (by rw [hv2, hi.count]; exact (List.getElem?_eq_some_iff.mp e2).1)]
      have hset : (d.accs.set a { acc with ctype := 4 })[a]? = some { acc with ctype := 4 } :=
        List.getElem?_set_self (List.getElem?_eq_some_iff.mp hsame).1
      have hkeep : ∀ (j : Nat) (acc' : Acc), d0.accs[j]? = some acc' → d.accs[j]? = some { acc' with ctype := 4 } →
          (d.accs.set a { acc with ctype := 4 })[j]? = some { acc' with ctype := 4 } := by
        intro j acc' h1 h2
        by_cases hj : a = j
        · subst hj
          rw [h0] at h1
          have := Option.some.inj h1
          subst this
          exact hset
        · rw [List.getElem?_set_ne hj]
          exact h2
      by_cases hf : v ∈ fixed
      · rw [if_pos hf]
        refine ⟨_, fixed, rfl, ⟨set_acc_inv d0 d fixed fixed (fun _ h => h) _ a acc v h0 hsame hc hv hf rfl hi.accs,
          hi.same, hi.bufs, hi.count, ?_⟩, fun _ h => h, ?_, ?_, ?_, fun _ h => .inl h⟩
        · intro w hw
          exact hi.wide w hw
        · intro acc' h1 _
          rw [h0] at h1
          have := Option.some.inj h1
          subst this
          exact hset
        · exact hkeep
        · intro j hj
          exact List.getElem?_set_ne (Ne.symm hj)
      · rw [if_neg hf]
        have hbd := hi.bytes v hf bytes hb
        obtain ⟨view2, buf2, f1, f2, f3, f4⟩ := viewBytes_some hbd
        have : view2 = view := by
          rw [hi.same v hf, e1] at f1
          exact (Option.some.inj f1).symm
        subst this
        have hwv : widenView { d with accs := d.accs.set a { acc with ctype := 4 } } v =
            some ⟨d.accs.set a { acc with ctype := 4 },
              d.views.set v ⟨view2.buffer, buf2.data.length, view2.length * 2, view2.stride * 2⟩,
              d.bufs.set view2.buffer ⟨buf2.data ++ widen bytes, buf2.length + (widen bytes).length⟩⟩ := by
          simp only [widenView, f1, f2]
          rw [if_pos f3, ← f4]
        rw [hwv]
        have hbl : bytes.length = view2.length := by
          rw [f4, List.length_take, List.length_drop]
          omega
        refine ⟨_, _, rfl, ⟨set_acc_inv d0 d fixed (v :: fixed) (fun _ h => by simp [h]) _ a acc v h0 hsame hc hv
          (by simp) rfl hi.accs, ?_, ?_, ?_, ?_⟩, fun _ h => by simp [h], ?_, ?_, ?_, ?_⟩
        · intro w hw
          simp only [List.mem_cons, not_or] at hw
          simp only
          rw [List.getElem?_set_ne (Ne.symm hw.1)]
          exact hi.same w hw.2
        · intro b buf0 hb0
          obtain ⟨ext, he⟩ := hi.bufs b buf0 hb0
          simp only
          by_cases hbb : view2.buffer = b
          · subst hbb
            rw [he] at f2
            have := Option.some.inj f2
            subst this
            rw [List.getElem?_set_self (List.getElem?_eq_some_iff.mp he).1]
            exact ⟨ext ++ widen bytes, by simp [Nat.add_assoc]⟩
          · rw [List.getElem?_set_ne hbb]
            exact ⟨ext, he⟩
        · simpa using hi.count
        · intro w hw
          by_cases hwv : w = v
          · subst hwv
            refine ⟨view2, buf2.data.length, bytes, e1, hb, ?_, ?_⟩
            · exact List.getElem?_set_self (List.getElem?_eq_some_iff.mp f1).1
            · unfold viewBytes
              simp only
              rw [List.getElem?_set_self (List.getElem?_eq_some_iff.mp f1).1]
              simp only
              rw [List.getElem?_set_self (List.getElem?_eq_some_iff.mp f2).1]
              simp only
              rw [if_pos (by simp [widen_length, hbl])]
              have hl : (widen bytes).length = view2.length * 2 := by rw [widen_length, hbl]
              simp [← hl]
          · have hwf : w ∈ fixed := by
              rcases List.mem_cons.mp hw with h | h
              · exact absurd h hwv
              · exact h
            obtain ⟨vw, off, by', k1, k2, k3, k4⟩ := hi.wide w hwf
            refine ⟨vw, off, by', k1, k2, ?_, ?_⟩
            · simp only
              rw [List.getElem?_set_ne (Ne.symm hwv)]
              exact k3
            · exact viewBytes_append d view2.buffer buf2 f2 _ _ w _ k4 _ (List.getElem?_set_ne (Ne.symm hwv)) _
        · intro acc' h1 _
          rw [h0] at h1
          have := Option.some.inj h1
          subst this
          exact hset
        · exact hkeep
        · intro j hj
          exact List.getElem?_set_ne (Ne.symm hj)
        · intro w hw
          rcases List.mem_cons.mp hw with rfl | h
          · exact .inr ⟨acc, h0, hc, hv⟩
          · exact .inl h
    · rw [if_neg hc]
      refine ⟨d, fixed, rfl, hi, fun _ h => h, ?_, fun j acc' _ h => h, fun _ _ => rfl, fun _ h => .inl h⟩
      intro acc' h1 h2
      rw [h0] at h1
      have := Option.some.inj h1
      subst this
      exact absurd h2 hc
  · -- already done
    unfold fixAttr
    rw [g3]
    simp only
    rw [if_neg (by decide)]
    refine ⟨d, fixed, rfl, hi, fun _ h => h, ?_, fun j acc' _ h => h, fun _ _ => rfl, fun _ h => .inl h⟩
    intro acc2 h1 _
    rw [g1] at h1
    have := Option.some.inj h1
    subst this
    exact g3

theorem fixAttrs_inv (as : List Nat) : ∀ (d0 d : JDoc) (fixed : List Nat), FixInv d0 d fixed → AttrsOk d0 as →
    ∃ d' fixed', fixAttrs as d fixed = some (d', fixed') ∧ FixInv d0 d' fixed' ∧
      (∀ a ∈ as, ∀ acc, d0.accs[a]? = some acc → acc.ctype = 2 → d'.accs[a]? = some { acc with ctype := 4 }) ∧
      (∀ (j : Nat) (acc : Acc), d0.accs[j]? = some acc → d.accs[j]? = some { acc with ctype := 4 } →
        d'.accs[j]? = some { acc with ctype := 4 }) ∧
      (∀ j : Nat, j ∉ as → d'.accs[j]? = d.accs[j]?) ∧
      (∀ v ∈ fixed', v ∈ fixed ∨ ∃ a ∈ as, ∃ acc, d0.accs[a]? = some acc ∧ acc.ctype = 2 ∧ acc.view = some v) := by
  induction as with
  | nil => intro d0 d fixed hi _; exact ⟨d, fixed, rfl, hi, by simp, fun _ _ _ h => h, fun _ _ => rfl, fun _ h => .inl h⟩
  | cons a as ih =>
    intro d0 d fixed hi hok
    obtain ⟨d1, f1, e1, i1, _, c1, k1, n1, v1⟩ := fixAttr_spec d0 d fixed hi a (fun x hx => hok x (by
      have : x = a := by simpa using hx
      simp [this]))
    obtain ⟨d2, f2, e2, i2, c2, k2, n2, v2⟩ := ih d0 d1 f1 i1 (fun x hx => hok x (by simp [hx]))
    refine ⟨d2, f2, by rw [fixAttrs, e1]; exact e2, i2, ?_, ?_, ?_, ?_⟩
    · intro x hx acc h1 h2
      rcases List.mem_cons.mp hx with rfl | hx
      · exact k2 x acc h1 (c1 acc h1 h2)
      · exact c2 x hx acc h1 h2
    · intro j acc h1 h2
      exact k2 j acc h1 (k1 j acc h1 h2)
    · intro j hj
      simp only [List.mem_cons, not_or] at hj
      rw [n2 j hj.2, n1 j hj.1]
    · intro v hv
      rcases v2 v hv with h | ⟨x, hx, h⟩
      · rcases v1 v h with h | h
        · exact .inl h
        · exact .inr ⟨a, by simp, h⟩
      · exact .inr ⟨x, by simp [hx], h⟩

/-- C47: if the joint attributes refer to existing data, widening succeeds. Accessors that are not listed
keep everything; listed byte accessors become 16 bit. The bytes of a view used by a listed byte accessor are
widened one by one; all other views keep their bytes. -/
theorem fixAttrs_spec (d : JDoc) (as : List Nat) (hok : AttrsOk d as) :
    ∃ d' fixed, fixAttrs as d [] = some (d', fixed) ∧
      (∀ (j : Nat), (j ∉ as ∨ ∃ acc, d.accs[j]? = some acc ∧ acc.ctype ≠ 2) → d'.accs[j]? = d.accs[j]?) ∧
      (∀ a ∈ as, ∀ acc, d.accs[a]? = some acc → acc.ctype = 2 → d'.accs[a]? = some { acc with ctype := 4 }) ∧
      (∀ v, (∃ a ∈ as, ∃ acc, d.accs[a]? = some acc ∧ acc.ctype = 2 ∧ acc.view = some v) →
        ∃ view view' bytes, d.views[v]? = some view ∧ d'.views[v]? = some view' ∧ view'.stride = view.stride * 2 ∧
          viewBytes d v = some bytes ∧ viewBytes d' v = some (widen bytes)) ∧
      (∀ v bytes, (¬ ∃ a ∈ as, ∃ acc, d.accs[a]? = some acc ∧ acc.ctype = 2 ∧ acc.view = some v) →
        viewBytes d v = some bytes → viewBytes d' v = some bytes) := by
  obtain ⟨d', fixed, e, hi, c, _, n, hv⟩ := fixAttrs_inv as d d []
    ⟨fun _ => .inl rfl, fun _ _ => rfl, fun b buf h => ⟨[], by simpa using h⟩, rfl, by simp⟩ hok
  refine ⟨d', fixed, e, ?_, c, ?_, ?_⟩
  · rintro j (h | ⟨acc, h1, h2⟩)
    · exact n j h
    · rcases hi.accs j with h | ⟨acc', _, g1, g2, _⟩
      · exact h
      · rw [h1] at g1
        have := Option.some.inj g1
        subst this
        exact absurd g2 h2
  · rintro v ⟨a, ha, acc, h1, h2, h3⟩
    have hc := c a ha acc h1 h2
    rcases hi.accs a with h | ⟨acc', v', g1, g2, g3, g4, g5⟩
    · rw [h, h1] at hc
      have := Option.some.inj hc
      have h4 : acc.ctype = 4 := by rw [this]
      omega
    · rw [h1] at g1
      have := Option.some.inj g1
      subst this
      rw [h3] at g4
      have := Option.some.inj g4
      subst this
      obtain ⟨view, off, bytes, k1, k2, k3, k4⟩ := hi.wide v g5
      exact ⟨view, _, bytes, k1, k3, rfl, k2, k4⟩
  · intro v bytes hno hb
    apply hi.bytes v _ bytes hb
    intro hf
    rcases hv v hf with h | h
    · simp at h
    · exact hno h

/-- C47: every joint number is kept, as long as the accessor starts at the beginning of its view. Missing:
accessors with an offset, see `fixAttrs_offset_false`. -/
theorem fixAttrs_joints_partial (d : JDoc) (as : List Nat) (hok : AttrsOk d as) (a : Nat) (ha : a ∈ as) (acc : Acc)
    (hacc : d.accs[a]? = some acc) (hc : acc.ctype = 2) (ho : acc.offset = 0) :
    ∃ d' fixed, fixAttrs as d [] = some (d', fixed) ∧
      ∀ k c x, readJoint d a k c = some x → readJoint d' a k c = some x := by
  obtain ⟨d', fixed, e, _, h2, h3, _⟩ := fixAttrs_spec d as hok
  refine ⟨d', fixed, e, ?_⟩
  intro k c x hx
  have hacc' := h2 a ha acc hacc hc
  obtain ⟨acc0, g1, g2⟩ := hok a ha
  rw [hacc] at g1
  have := Option.some.inj g1
  subst this
  obtain ⟨v, _, hv, _⟩ := g2 hc
  obtain ⟨view, view', bytes, k1, k2, k3, k4, k5⟩ := h3 v ⟨a, ha, acc, hacc, hc, hv⟩
  unfold readJoint at hx ⊢
  rw [hacc] at hx
  rw [hacc']
  simp only [hv, k1, k2, k4, k5, hc, ho, Nat.zero_add, if_true, show ¬ (4 = 2) by decide, if_false] at hx ⊢
  obtain ⟨b, hb, rfl⟩ := Option.map_eq_some_iff.mp hx
  have hidx : k * (if view'.stride = 0 then 8 else view'.stride) + 2 * c =
      2 * (k * (if view.stride = 0 then 4 else view.stride) + c) := by
    rw [k3]
    by_cases hs : view.stride = 0
    · simp only [hs, if_true, Nat.zero_mul]
      omega
    · have : ¬ view.stride * 2 = 0 := by omega
      simp only [hs, this, if_false]
      rw [Nat.mul_add, ← Nat.mul_assoc, ← Nat.mul_assoc, Nat.mul_comm (k * view.stride) 2, Nat.mul_assoc]
  rw [hidx]
  rw [(widen_get bytes _).1, (widen_get bytes _).2, hb]
  simp

/-- Two primitives whose joints share a view, the second one after the first one. -/
def sharedView : JDoc :=
  ⟨[⟨some 0, 0, 2⟩, ⟨some 0, 4, 2⟩], [⟨0, 2, 8, 0⟩], [⟨[9, 9, 1, 2, 3, 4, 5, 6, 7, 8], 10⟩]⟩

/-- C47 is false of the code: the offset of an accessor is not doubled, so that the joints of the second
primitive of `sharedView` change from 5, 6, 7, 8 to 3, 4, 5, 6. -/
theorem fixAttrs_offset_false :
    (List.range 4).map (readJoint sharedView 1 0) = [some 5, some 6, some 7, some 8] ∧
    (fixAttrs [0, 1] sharedView []).map (fun r => (List.range 4).map (readJoint r.1 1 0)) =
      some [some 3, some 4, some 5, some 6] := by
  decide

/-- A view that other attributes use as well: the weights interleaved with the joints move. -/
theorem fixAttrs_interleaved_false :
    ∃ d : JDoc, ∃ v : Nat, AttrsOk d [0] ∧ d.accs[1]? = some ⟨some v, 4, 2⟩ ∧ (readJoint d 1 0 0 = some 50) ∧
      (fixAttrs [0] d []).map (fun r => readJoint r.1 1 0 0) = some (some 3) :=
  ⟨⟨[⟨some 0, 0, 2⟩, ⟨some 0, 4, 2⟩], [⟨0, 0, 8, 8⟩], [⟨[1, 2, 3, 4, 50, 60, 70, 80], 8⟩]⟩, 0, by
    intro a ha
    have : a = 0 := by simpa using ha
    subst this
    exact ⟨_, rfl, fun _ => ⟨0, _, rfl, rfl⟩⟩, rfl, by decide, by decide⟩

example : AttrsOk sharedView [0, 1] := by
  intro a ha
  simp only [List.mem_cons, List.not_mem_nil, or_false] at ha
  rcases ha with rfl | rfl
  · exact ⟨_, rfl, fun _ => ⟨0, _, rfl, rfl⟩⟩
  · exact ⟨_, rfl, fun _ => ⟨0, _, rfl, rfl⟩⟩

end Verif.Gltf
