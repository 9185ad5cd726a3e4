import Verif.Mqo.Tpose
import Verif.Geom.EulerProps

/-! Property C155: the automatic T-pose. -/

namespace Verif.Mqo

open Verif.Geom Real

/-! ### The rotation -/

theorem adjustQuat_eq (r : ℝ) : adjustQuat r = quatZ r := by
  simp [adjustQuat, eulerToQuat, quatZ]

theorem adjustQuat_unit (r : ℝ) : (adjustQuat r).Unit := by
  rw [adjustQuat_eq]
  exact quatZ_unit r

theorem adjustQuat_applyTo (r : ℝ) (v : Vec3 ℝ) :
    (adjustQuat r).applyTo v = ⟨v.x * cos r - v.y * sin r, v.x * sin r + v.y * cos r, v.z⟩ := by
  rw [quat_applyTo_eq_matrix _ (adjustQuat_unit r), adjustQuat_eq, rotation_quatZ]
  ext <;> simp [Mat4.applyTo, rotZ] <;> ring

/-- The turned vector is horizontal, has the same length and does not change sides. -/
theorem adjust_vec (v : Vec3 ℝ) : ∃ x, (adjustQuat (adjustAngle v)).applyTo v = ⟨x, 0, v.z⟩ ∧
    x ^ 2 = v.x ^ 2 + v.y ^ 2 ∧ (0 < v.x → 0 < x) ∧ (v.x < 0 → x < 0) := by
  rw [adjustQuat_applyTo]
  by_cases h0 : v.x = 0 ∧ v.y = 0
  · refine ⟨0, ?_, by simp [h0.1, h0.2], fun h => by rw [h0.1] at h; exact absurd h (lt_irrefl _),
      fun h => by rw [h0.1] at h; exact absurd h (lt_irrefl _)⟩
    simp [h0.1, h0.2]
  · have hpos : 0 < v.x ^ 2 + v.y ^ 2 := by
      rcases not_and_or.1 h0 with h | h
      · have := sq_pos_of_ne_zero h
        have := sq_nonneg v.y
        linarith
      · have := sq_pos_of_ne_zero h
        have := sq_nonneg v.x
        linarith
    have hr : 0 < √(v.x ^ 2 + v.y ^ 2) := Real.sqrt_pos.2 hpos
    have hsq : √(v.x ^ 2 + v.y ^ 2) ^ 2 = v.x ^ 2 + v.y ^ 2 := Real.sq_sqrt hpos.le
    obtain ⟨hc, hs⟩ := atan2_spec v.y v.x _ hr hsq.symm
    have harg : |atan2 v.y v.x| < π / 2 ↔ 0 < v.x := by
      unfold atan2
      rw [Complex.abs_arg_lt_pi_div_two_iff]
      constructor
      · rintro (h | h)
        · exact h
        · exfalso
          have hx := congrArg Complex.re h
          have hy := congrArg Complex.im h
          simp only [Complex.zero_re, Complex.zero_im] at hx hy
          exact h0 ⟨hx, hy⟩
      · exact .inl
    generalize hρ : √(v.x ^ 2 + v.y ^ 2) = ρ at hr hsq hc hs
    have hne : ρ ≠ 0 := hr.ne'
    unfold adjustAngle
    split_ifs with h
    · refine ⟨ρ, ?_, hsq, fun _ => hr, fun hx => absurd (harg.1 h) (not_lt.2 hx.le)⟩
      rw [cos_neg, sin_neg, hc, hs]
      ext
      · simp only
        field_simp
        linear_combination -hsq
      · simp only
        field_simp
        ring
      · rfl
    · refine ⟨-ρ, ?_, by rw [neg_sq]; exact hsq, fun hx => absurd (harg.2 hx) h, fun _ => by linarith⟩
      rw [cos_pi_sub, sin_pi_sub, hc, hs]
      ext
      · simp only
        field_simp
        linear_combination hsq
      · simp only
        field_simp
        ring
      · rfl

/-! ### The farthest child -/

theorem boneVec_loop (base : Bone ℝ) (all : List (Bone ℝ)) (bones : List (Bone ℝ)) (hsub : ∀ b ∈ bones, b ∈ all) :
    ∀ (m : ℝ) (o : Option (Vec3 ℝ)), 0 ≤ m →
      (∀ v, o = some v → m = v.lenSqr ∧ ∃ b ∈ all, b.parent = base.id ∧ v = b.pos.sub base.pos) → (o = none → m = 0) →
      let r := bones.foldl (longerChild base) (m, o)
      m ≤ r.1 ∧ (∀ v, r.2 = some v → r.1 = v.lenSqr ∧ ∃ b ∈ all, b.parent = base.id ∧ v = b.pos.sub base.pos) ∧
        (r.2 = none → r.1 = 0) ∧ ∀ b ∈ bones, b.parent = base.id → (b.pos.sub base.pos).lenSqr ≤ r.1 := by
  induction bones with
  | nil =>
    intro m o _ h1 h2
    exact ⟨le_refl _, h1, h2, fun b hb => by simp at hb⟩
  | cons c bones ih =>
    intro m o hm h1 h2
    have hc := hsub c (by simp)
    rw [List.foldl_cons]
    have hstep : ∃ m' o', longerChild base (m, o) c = (m', o') ∧ m ≤ m' ∧
        (∀ v, o' = some v → m' = v.lenSqr ∧ ∃ b ∈ all, b.parent = base.id ∧ v = b.pos.sub base.pos) ∧ (o' = none → m' = 0) ∧
        (c.parent = base.id → (c.pos.sub base.pos).lenSqr ≤ m') := by
      by_cases hp : c.parent = base.id
      · by_cases hl : m < (c.pos.sub base.pos).lenSqr
        · refine ⟨(c.pos.sub base.pos).lenSqr, some (c.pos.sub base.pos), ?_, hl.le, ?_, ?_, fun _ => le_refl _⟩
          · simp [longerChild, hp, FloatOps.lt, hl]
          · intro v hv
            cases hv
            exact ⟨rfl, c, hc, hp, rfl⟩
          · intro h; cases h
        · exact ⟨m, o, by simp [longerChild, FloatOps.lt, hl], le_refl _, h1, h2, fun _ => not_lt.1 hl⟩
      · exact ⟨m, o, by simp [longerChild, hp], le_refl _, h1, h2, fun h => absurd h hp⟩
    obtain ⟨m', o', he, hmm, h1', h2', h3'⟩ := hstep
    rw [he]
    obtain ⟨g1, g2, g3, g4⟩ := ih (fun b hb => hsub b (by simp [hb])) m' o' (hm.trans hmm) h1' h2'
    refine ⟨hmm.trans g1, g2, g3, ?_⟩
    intro b hb hp
    rcases List.mem_cons.1 hb with rfl | hb
    · exact (h3' hp).trans g1
    · exact g4 b hb hp

/-- The vector found is that to the farthest child; there is none only if no child is away from the bone. -/
theorem boneVec_spec (base : Bone ℝ) (bones : List (Bone ℝ)) :
    (∀ v, boneVec base bones = some v → (∃ b ∈ bones, b.parent = base.id ∧ v = b.pos.sub base.pos) ∧
      ∀ b ∈ bones, b.parent = base.id → (b.pos.sub base.pos).lenSqr ≤ v.lenSqr) ∧
    (boneVec base bones = none → ∀ b ∈ bones, b.parent = base.id → (b.pos.sub base.pos).lenSqr ≤ 0) := by
  obtain ⟨-, h2, h3, h4⟩ := boneVec_loop base bones bones (fun _ h => h) 0 none (le_refl _) (fun v h => by cases h) (fun _ => rfl)
  refine ⟨?_, ?_⟩
  · intro v hv
    obtain ⟨g1, g2⟩ := h2 v hv
    refine ⟨g2, ?_⟩
    intro b hb hp
    rw [← g1]
    exact h4 b hb hp
  · intro hn b hb hp
    rw [← h3 hn]
    exact h4 b hb hp

/-! ### One bone -/

/-- What one adjustment does to a bone. -/
noncomputable def adjusted (q : Vec4 ℝ) (r : ℝ) (ts : List Int) (pos : Vec3 ℝ) (b : Bone ℝ) : Bone ℝ :=
  addOffset ts r (if b.id ∈ ts then { b with pos := turnPoint q pos b.pos 1 } else b)

theorem adjusted_fields (q : Vec4 ℝ) (r : ℝ) (ts : List Int) (pos : Vec3 ℝ) (b : Bone ℝ) :
    (adjusted q r ts pos b).id = b.id ∧ (adjusted q r ts pos b).parent = b.parent ∧ (adjusted q r ts pos b).name = b.name ∧
    (adjusted q r ts pos b).pos = (if b.id ∈ ts then turnPoint q pos b.pos 1 else b.pos) ∧
    (b.id ∉ ts → adjusted q r ts pos b = b) := by
  unfold adjusted addOffset
  by_cases h : b.id ∈ ts <;> simp [h]

theorem boneAdjustX_eq (base : Bone ℝ) (st : List (Bone ℝ) × List (Object ℝ)) (v : Vec3 ℝ) (h : boneVec base st.1 = some v) :
    (boneAdjustX base st).1 =
      st.1.map (adjusted (adjustQuat (adjustAngle v)) (adjustAngle v) (turning base.id st.1) base.pos) := by
  unfold boneAdjustX
  rw [h]
  simp only [turnBones, List.map_map]
  rfl

theorem base_turns (base : Int) (bones : List (Bone ℝ)) : base ∈ turning base bones :=
  turning_mono bones [base] base (by simp)

theorem child_turns (base : Int) (hb : 0 < base) (bones : List (Bone ℝ)) (c : Bone ℝ) (hc : c ∈ bones) (hp : c.parent = base) :
    c.id ∈ turning base bones := by
  unfold turning
  have key : ∀ (bones : List (Bone ℝ)) (ts : List Int), base ∈ ts → c ∈ bones →
      c.id ∈ bones.foldl (fun ts b => if b.parent > 0 ∧ b.parent ∈ ts ∧ b.id ∉ ts then b.id :: ts else ts) ts := by
    intro bones
    induction bones with
    | nil => intro ts _ h; simp at h
    | cons b bones ih =>
      intro ts hts hc
      rw [List.foldl_cons]
      rcases List.mem_cons.1 hc with rfl | hc
      · apply turning_mono
        split_ifs with h
        · simp
        · by_contra hn
          exact h ⟨by rw [hp]; exact hb, by rw [hp]; exact hts, hn⟩
      · apply ih _ _ hc
        split_ifs
        · exact List.mem_cons_of_mem _ hts
        · exact hts
  exact key bones [base] (by simp) hc

/-- The vectors to the children after a rotation of the bones about `base`. -/
theorem boneVec_map (base base' : Bone ℝ) (q : Vec4 ℝ) (hq : q.Unit) (f : Bone ℝ → Bone ℝ) (bones : List (Bone ℝ))
    (hid : base'.id = base.id) (hpos : base'.pos = base.pos) (hpar : ∀ b ∈ bones, (f b).parent = b.parent)
    (hf : ∀ b ∈ bones, b.parent = base.id → (f b).pos.sub base.pos = q.applyTo (b.pos.sub base.pos)) :
    boneVec base' (bones.map f) = (boneVec base bones).map q.applyTo := by
  have key : ∀ (bones : List (Bone ℝ)) (m : ℝ) (o : Option (Vec3 ℝ)), (∀ b ∈ bones, (f b).parent = b.parent) →
      (∀ b ∈ bones, b.parent = base.id → (f b).pos.sub base.pos = q.applyTo (b.pos.sub base.pos)) →
      (bones.map f).foldl (longerChild base') (m, o.map q.applyTo) =
        ((bones.foldl (longerChild base) (m, o)).1, ((bones.foldl (longerChild base) (m, o)).2).map q.applyTo) := by
    intro bones
    induction bones with
    | nil => intros; rfl
    | cons b bones ih =>
      intro m o h1 h2
      rw [List.map_cons, List.foldl_cons, List.foldl_cons]
      have hstep : longerChild base' (m, o.map q.applyTo) (f b) =
          ((longerChild base (m, o) b).1, (longerChild base (m, o) b).2.map q.applyTo) := by
        unfold longerChild
        rw [h1 b (by simp), hid, hpos]
        by_cases hp : b.parent = base.id
        · have hl : (q.applyTo (b.pos.sub base.pos)).lenSqr = (b.pos.sub base.pos).lenSqr := quat_dot q hq _ _
          simp only [hp, if_true, h2 b (by simp) hp, hl]
          split_ifs <;> rfl
        · simp only [hp, if_false]
      rw [hstep]
      exact ih _ _ (fun b hb => h1 b (by simp [hb])) (fun b hb => h2 b (by simp [hb]))
  have := key bones 0 none hpar hf
  unfold boneVec
  rw [Option.map_none] at this
  rw [this]

/-- The bone `base` and its children do not turn: nothing changes for it. -/
theorem boneVec_keep (base base' : Bone ℝ) (f : Bone ℝ → Bone ℝ) (bones : List (Bone ℝ))
    (hid : base'.id = base.id) (hpos : base'.pos = base.pos) (hpar : ∀ b ∈ bones, (f b).parent = b.parent)
    (hf : ∀ b ∈ bones, b.parent = base.id → (f b).pos = b.pos) :
    boneVec base' (bones.map f) = boneVec base bones := by
  have h1 : (⟨0, 0, 0, 1⟩ : Vec4 ℝ).Unit := by simp [Vec4.Unit, Vec4.lenSqr]
  have h2 : ∀ v : Vec3 ℝ, (⟨0, 0, 0, 1⟩ : Vec4 ℝ).applyTo v = v := by
    intro v
    ext <;> simp [Vec4.applyTo]
  rw [boneVec_map base base' ⟨0, 0, 0, 1⟩ h1 f bones hid hpos hpar (fun b hb hp => by rw [hf b hb hp, h2])]
  have : (⟨0, 0, 0, 1⟩ : Vec4 ℝ).applyTo = id := funext h2
  rw [this, Option.map_id, id]

/-- The bone points sideways: the vector to its farthest child is horizontal. -/
def Horizontal (base : Bone ℝ) (bones : List (Bone ℝ)) : Prop := ∀ v, boneVec base bones = some v → v.y = 0

/-- C155. After the adjustment the farthest child of the bone is at the height of the bone, at the same distance and
on the same side, and not moved to the front or back; the bone itself stays. -/
theorem adjust_horizontal (base : Bone ℝ) (st : List (Bone ℝ) × List (Object ℝ)) (hid : 0 < base.id)
    (c : Bone ℝ) (hc : c ∈ st.1) (hp : c.parent = base.id) (hne : c.pos ≠ base.pos) :
    ∃ (i : Nat) (b b' : Bone ℝ), st.1[i]? = some b ∧ b.parent = base.id ∧
      (∀ c ∈ st.1, c.parent = base.id → (c.pos.sub base.pos).lenSqr ≤ (b.pos.sub base.pos).lenSqr) ∧
      (boneAdjustX base st).1[i]? = some b' ∧ b'.pos.y = base.pos.y ∧ b'.pos.z = b.pos.z ∧
      (b'.pos.sub base.pos).lenSqr = (b.pos.sub base.pos).lenSqr ∧
      (base.pos.x < b.pos.x → base.pos.x < b'.pos.x) ∧ (b.pos.x < base.pos.x → b'.pos.x < base.pos.x) ∧
      ∀ d ∈ (boneAdjustX base st).1, d.id = base.id → ∃ d0 ∈ st.1, d0.id = base.id ∧ (d0.pos = base.pos → d.pos = base.pos) := by
  obtain ⟨h1, h2⟩ := boneVec_spec base st.1
  cases hv : boneVec base st.1 with
  | none =>
    exfalso
    have h := h2 hv c hc hp
    apply hne
    have hx : (c.pos.x - base.pos.x) ^ 2 + (c.pos.y - base.pos.y) ^ 2 + (c.pos.z - base.pos.z) ^ 2 ≤ 0 := by
      have e : (c.pos.sub base.pos).lenSqr = (c.pos.x - base.pos.x) ^ 2 + (c.pos.y - base.pos.y) ^ 2 + (c.pos.z - base.pos.z) ^ 2 := by
        simp only [Vec3.lenSqr, Vec3.sub]; ring
      rwa [e] at h
    have a1 := sq_nonneg (c.pos.x - base.pos.x)
    have a2 := sq_nonneg (c.pos.y - base.pos.y)
    have a3 := sq_nonneg (c.pos.z - base.pos.z)
    ext
    · exact sub_eq_zero.1 (pow_eq_zero_iff (by norm_num) |>.1 (show (c.pos.x - base.pos.x) ^ 2 = 0 by linarith))
    · exact sub_eq_zero.1 (pow_eq_zero_iff (by norm_num) |>.1 (show (c.pos.y - base.pos.y) ^ 2 = 0 by linarith))
    · exact sub_eq_zero.1 (pow_eq_zero_iff (by norm_num) |>.1 (show (c.pos.z - base.pos.z) ^ 2 = 0 by linarith))
  | some v =>
    obtain ⟨⟨b, hb, hbp, rfl⟩, hmax⟩ := h1 v hv
    obtain ⟨i, hi⟩ := List.mem_iff_getElem?.1 hb
    rw [boneAdjustX_eq base st _ hv]
    generalize hr : adjustAngle (b.pos.sub base.pos) = r
    obtain ⟨x, e1, e2, e3, e4⟩ := adjust_vec (b.pos.sub base.pos)
    rw [hr] at e1
    have hq := adjustQuat_unit r
    obtain ⟨-, -, -, f4, -⟩ := adjusted_fields (adjustQuat r) r (turning base.id st.1) base.pos b
    rw [if_pos (child_turns base.id hid st.1 b hb hbp)] at f4
    have hrig := (turn_rigid (adjustQuat r) hq base.pos b.pos b.pos base.pos).2.2
    rw [← f4, e1] at hrig
    have hx := congrArg Vec3.x hrig
    have hy := congrArg Vec3.y hrig
    have hz := congrArg Vec3.z hrig
    simp only [Vec3.sub] at hx hy hz e2 e3 e4
    refine ⟨i, b, _, hi, hbp, hmax, by rw [List.getElem?_map, hi]; rfl, by linarith, by linarith, ?_, ?_, ?_, ?_⟩
    · rw [hrig]
      simp only [Vec3.lenSqr, Vec3.sub]
      linear_combination e2
    · intro h; have := e3 (by linarith); linarith
    · intro h; have := e4 (by linarith); linarith
    · intro d hd hdid
      obtain ⟨d0, hd0, rfl⟩ := List.mem_map.1 hd
      obtain ⟨g1, -, -, g4, -⟩ := adjusted_fields (adjustQuat r) r (turning base.id st.1) base.pos d0
      refine ⟨d0, hd0, by rw [← g1]; exact hdid, ?_⟩
      intro hpos
      rw [g4]
      split_ifs
      · rw [hpos]
        exact (turn_rigid (adjustQuat r) hq base.pos base.pos base.pos base.pos).2.1
      · exact hpos

/-- Adjusting makes the bone horizontal. -/
theorem adjust_self (base base' : Bone ℝ) (st : List (Bone ℝ) × List (Object ℝ)) (hid : 0 < base.id)
    (h1 : base'.id = base.id) (h2 : base'.pos = base.pos) : Horizontal base' (boneAdjustX base st).1 := by
  intro w hw
  cases hv : boneVec base st.1 with
  | none =>
    have e : (boneAdjustX base st).1 = st.1 := by unfold boneAdjustX; rw [hv]
    rw [e] at hw
    have := boneVec_keep base base' id st.1 h1 h2 (fun _ _ => rfl) (fun _ _ _ => rfl)
    rw [List.map_id] at this
    rw [this, hv] at hw
    cases hw
  | some v =>
    rw [boneAdjustX_eq base st v hv, boneVec_map base base' (adjustQuat (adjustAngle v)) (adjustQuat_unit _) _ st.1 h1 h2
      (fun b _ => (adjusted_fields _ _ _ _ b).2.1), hv] at hw
    · simp only [Option.map_some, Option.some.injEq] at hw
      obtain ⟨x, e, -⟩ := adjust_vec v
      rw [← hw, e]
    · intro b hb hp
      rw [(adjusted_fields _ _ _ _ b).2.2.2.1, if_pos (child_turns base.id hid st.1 b hb hp)]
      exact (turn_rigid _ (adjustQuat_unit _) base.pos b.pos b.pos base.pos).2.2

/-! ### All matching bones -/

/-- Ids and parents. -/
def skeleton (bones : List (Bone ℝ)) : List (Int × Int) := bones.map fun b => (b.id, b.parent)

theorem Below.congr (bones bones' : List (Bone ℝ)) (h : skeleton bones = skeleton bones') (a i : Int) (hb : Below bones a i) :
    Below bones' a i := by
  induction hb with
  | refl => exact .refl
  | child b hb hp _ ih =>
    have : (b.id, b.parent) ∈ skeleton bones' := by
      rw [← h]
      exact List.mem_map.2 ⟨b, hb, rfl⟩
    obtain ⟨b', hb', e⟩ := List.mem_map.1 this
    simp only [Prod.mk.injEq] at e
    rw [← e.1]
    exact .child b' hb' (by rw [e.2]; exact hp) (by rw [e.2]; exact ih)

theorem skeleton_step (st : List (Bone ℝ) × List (Object ℝ)) (i : Int) : skeleton (tposeStep st i).1 = skeleton st.1 := by
  unfold tposeStep
  split
  · next b _ =>
    cases hv : boneVec b st.1 with
    | none => unfold boneAdjustX; rw [hv]
    | some v =>
      rw [boneAdjustX_eq b st v hv]
      unfold skeleton
      rw [List.map_map]
      apply List.map_congr_left
      intro c _
      obtain ⟨h1, h2, -⟩ := adjusted_fields (adjustQuat (adjustAngle v)) (adjustAngle v) (turning b.id st.1) b.pos c
      simp [h1, h2]
  · rfl

/-- All bones with the id point sideways. -/
def Posed (bones : List (Bone ℝ)) (i : Int) : Prop := ∀ b ∈ bones, b.id = i → Horizontal b bones

theorem posed_self (st : List (Bone ℝ) × List (Object ℝ)) (hn : (st.1.map Bone.id).Nodup) (i : Int) (hi : 0 < i) :
    Posed (tposeStep st i).1 i := by
  unfold tposeStep
  split
  · next b hb =>
    have hbi : b.id = i := by simpa using List.find?_some hb
    have hbm := List.mem_of_find?_eq_some hb
    intro b' hb' hb'i
    refine adjust_self b b' st (by rw [hbi]; exact hi) (by rw [hbi]; exact hb'i) ?_
    cases hv : boneVec b st.1 with
    | none =>
      have e : (boneAdjustX b st).1 = st.1 := by unfold boneAdjustX; rw [hv]
      rw [e] at hb'
      rw [List.inj_on_of_nodup_map hn hb' hbm (by rw [hb'i, hbi])]
    | some v =>
      rw [boneAdjustX_eq b st v hv] at hb'
      obtain ⟨c, hc, rfl⟩ := List.mem_map.1 hb'
      obtain ⟨g1, -, -, g4, -⟩ := adjusted_fields (adjustQuat (adjustAngle v)) (adjustAngle v) (turning b.id st.1) b.pos c
      have : c = b := List.inj_on_of_nodup_map hn hc hbm (by rw [← g1, hb'i, hbi])
      subst this
      rw [g4]
      split_ifs
      · exact (turn_rigid _ (adjustQuat_unit _) c.pos c.pos c.pos c.pos).2.1
      · rfl
  · next hb =>
    intro b hbm hbi
    exact absurd (List.find?_eq_none.1 hb b hbm) (by simp [hbi])

theorem posed_other (st : List (Bone ℝ) × List (Object ℝ)) (hn : (st.1.map Bone.id).Nodup) (i j : Int)
    (hji : ¬ Below st.1 j i) (h : Posed st.1 i) : Posed (tposeStep st j).1 i := by
  unfold tposeStep
  split
  · next b hb =>
    have hbj : b.id = j := by simpa using List.find?_some hb
    have hbm := List.mem_of_find?_eq_some hb
    cases hv : boneVec b st.1 with
    | none =>
      have e : (boneAdjustX b st).1 = st.1 := by unfold boneAdjustX; rw [hv]
      rw [e]; exact h
    | some v =>
      rw [boneAdjustX_eq b st v hv]
      have hsound : ∀ k ∈ turning b.id st.1, Below st.1 j k := by
        intro k hk
        rw [← hbj]
        exact turning_sound b.id st.1 st.1 [b.id] (fun _ h => h) (by simp; exact .refl) k hk
      intro c' hc' hc'i
      obtain ⟨c, hc, rfl⟩ := List.mem_map.1 hc'
      obtain ⟨g1, g2, -, g4, g5⟩ := adjusted_fields (adjustQuat (adjustAngle v)) (adjustAngle v) (turning b.id st.1) b.pos c
      rw [g1] at hc'i
      have hcn : c.id ∉ turning b.id st.1 := by
        intro hk
        have := hsound _ hk
        rw [hc'i] at this
        exact hji this
      rw [g5 hcn]
      intro w hw
      rw [boneVec_keep c c _ st.1 rfl rfl (fun d _ => (adjusted_fields _ _ _ _ d).2.1)] at hw
      · exact h c hc hc'i w hw
      · intro d hd hdp
        rw [(adjusted_fields _ _ _ _ d).2.2.2.1]
        split_ifs with hk
        · -- a child of the bone `i` is below `j` only if it is `j` itself, which stays
          have key : ∀ k, Below st.1 j k → k = d.id → j = d.id := by
            intro k hk
            cases hk with
            | refl => exact id
            | child e he hpe hbe =>
              intro hed
              have hed' := List.inj_on_of_nodup_map hn he hd hed
              subst hed'
              rw [hdp, hc'i] at hbe
              exact absurd hbe hji
          have hdb : d = b := List.inj_on_of_nodup_map hn hd hbm (by rw [← key _ (hsound _ hk) rfl, hbj])
          subst hdb
          exact (turn_rigid _ (adjustQuat_unit _) d.pos d.pos d.pos d.pos).2.1
        · rfl
  · exact h

theorem ids_of_skeleton (bones bones' : List (Bone ℝ)) (h : skeleton bones = skeleton bones') :
    bones.map Bone.id = bones'.map Bone.id := by
  have := congrArg (List.map Prod.fst) h
  simpa [skeleton, List.map_map, Function.comp_def] using this

theorem parentsFirst_of_skeleton (bones bones' : List (Bone ℝ)) (h : skeleton bones = skeleton bones') (hp : ParentsFirst bones) :
    ParentsFirst bones' := by
  refine ⟨by rw [← ids_of_skeleton _ _ h]; exact hp.1, ?_⟩
  intro i j b p hi hj hpar he
  have get : ∀ (k : Nat) (b : Bone ℝ), bones'[k]? = some b → ∃ b0, bones[k]? = some b0 ∧ b0.id = b.id ∧ b0.parent = b.parent := by
    intro k b hk
    have := congrArg (·[k]?) h
    simp only [skeleton, List.getElem?_map, hk, Option.map_some] at this
    obtain ⟨b0, h1, h2⟩ := Option.map_eq_some_iff.1 this
    simp only [Prod.mk.injEq] at h2
    exact ⟨b0, h1, h2.1, h2.2⟩
  obtain ⟨b0, h1, h2, h3⟩ := get i b hi
  obtain ⟨p0, h4, h5, h6⟩ := get j p hj
  exact hp.2 i j b0 p0 h1 h4 (by rw [h3]; exact hpar) (by rw [h3, h5]; exact he)

theorem index_unique (bones : List (Bone ℝ)) (hn : (bones.map Bone.id).Nodup) (n m : Nat) (a b : Bone ℝ)
    (hn1 : bones[n]? = some a) (hm : bones[m]? = some b) (h : a.id = b.id) : n = m := by
  have h1 : (bones.map Bone.id)[n]? = some a.id := by rw [List.getElem?_map, hn1]; rfl
  have h2 : (bones.map Bone.id)[m]? = some a.id := by rw [List.getElem?_map, hm, h]; rfl
  obtain ⟨l1, e1⟩ := List.getElem?_eq_some_iff.1 h1
  obtain ⟨l2, e2⟩ := List.getElem?_eq_some_iff.1 h2
  exact (List.Nodup.getElem_inj_iff hn).1 (e1.trans e2.symm)

/-- A bone is not listed before one it is below. -/
theorem below_index (bones : List (Bone ℝ)) (hp : ParentsFirst bones) (a k : Int) (h : Below bones a k) (n : Nat) (ba : Bone ℝ)
    (hn : bones[n]? = some ba) (hba : ba.id = a) : ∀ (m : Nat) (bk : Bone ℝ), bones[m]? = some bk → bk.id = k → n ≤ m := by
  induction h with
  | refl =>
    intro m bk hm hk
    rw [index_unique bones hp.1 n m ba bk hn hm (by rw [hba, hk])]
  | child b hb hpar hbel ih =>
    intro m bk hm hk
    obtain ⟨i, hi⟩ := List.mem_iff_getElem?.1 hb
    have := index_unique bones hp.1 m i bk b hm hi hk
    subst this
    obtain ⟨j, p, hj, hpj⟩ := below_bone a bones (List.mem_map.2 ⟨ba, List.mem_of_getElem? hn, hba⟩) _ hbel
    have h1 := ih j p hj hpj
    have h2 := hp.2 m j b p hi hj hpar hpj.symm
    omega

theorem steps_posed : ∀ (todo done : List Int) (st : List (Bone ℝ) × List (Object ℝ)),
    (∀ i ∈ todo, 0 < i) → (st.1.map Bone.id).Nodup →
    (∀ i ∈ done, ∀ j ∈ todo, ¬ Below st.1 j i) → todo.Pairwise (fun i j => ¬ Below st.1 j i) → (∀ i ∈ done, Posed st.1 i) →
    (∀ i ∈ done, Posed (todo.foldl tposeStep st).1 i) ∧ (∀ i ∈ todo, Posed (todo.foldl tposeStep st).1 i) := by
  intro todo
  induction todo with
  | nil =>
    intro done st _ _ _ _ h
    exact ⟨h, fun i hi => by simp at hi⟩
  | cons j todo ih =>
    intro done st h1 hn hsep hpw h
    rw [List.foldl_cons]
    have hsk := skeleton_step st j
    obtain ⟨p1, p2⟩ := List.pairwise_cons.1 hpw
    obtain ⟨g1, g2⟩ := ih (j :: done) (tposeStep st j) (fun i hi => h1 i (by simp [hi]))
      (by rw [ids_of_skeleton _ _ hsk]; exact hn)
      (by
        intro i hi k hk hbel
        have hb := Below.congr _ _ hsk k i hbel
        rcases List.mem_cons.1 hi with rfl | hi
        · exact p1 k hk hb
        · exact hsep i hi k (by simp [hk]) hb)
      (p2.imp fun hne hbel => hne (Below.congr _ _ hsk _ _ hbel))
      (by
        intro i hi
        rcases List.mem_cons.1 hi with rfl | hi
        · exact posed_self st hn i (h1 i (by simp))
        · exact posed_other st hn i j (hsep i hi j (by simp)) (h i hi))
    refine ⟨fun i hi => g1 i (by simp [hi]), ?_⟩
    intro i hi
    rcases List.mem_cons.1 hi with rfl | hi
    · exact g1 i (by simp)
    · exact g2 i hi

/-- C155. If bones are listed after their parents, then afterwards all bones that match point sideways. Missing: lists
in another order, for which it is false (`autotpose_order_false`). -/
theorem autotpose_horizontal_partial (m : Str → Bool) (st : List (Bone ℝ) × List (Object ℝ)) (hp : ParentsFirst st.1)
    (hpos : ∀ b ∈ st.1, 0 < b.id) (b : Bone ℝ) (hb : b ∈ st.1) (hm : m b.name = true) :
    ∀ base ∈ (autoTpose m st).1, base.id = b.id →
      (∀ c ∈ (autoTpose m st).1, c.parent = b.id → c.pos = base.pos) ∨
      ∃ c ∈ (autoTpose m st).1, c.parent = b.id ∧ c.pos.y = base.pos.y ∧ c.pos ≠ base.pos ∧
        ∀ d ∈ (autoTpose m st).1, d.parent = b.id → (d.pos.sub base.pos).lenSqr ≤ (c.pos.sub base.pos).lenSqr := by
  have hposed : Posed (autoTpose m st).1 b.id := by
    refine (steps_posed _ [] st ?_ hp.1 (fun i hi => by simp at hi) ?_ (fun i hi => by simp at hi)).2 b.id
      (List.mem_map.2 ⟨b, List.mem_filter.2 ⟨hb, hm⟩, rfl⟩)
    · intro i hi
      obtain ⟨c, hc, rfl⟩ := List.mem_map.1 hi
      exact hpos c (List.mem_filter.1 hc).1
    · rw [List.pairwise_map]
      apply List.Pairwise.filter
      rw [List.pairwise_iff_getElem]
      intro i j hi hj hij hbel
      have := below_index st.1 hp _ _ hbel j _ (List.getElem?_eq_getElem hj) rfl i _ (List.getElem?_eq_getElem hi) rfl
      omega
  intro base hbase hid
  have hh := hposed base hbase hid
  obtain ⟨s1, s2⟩ := boneVec_spec base (autoTpose m st).1
  have hzero : ∀ u : Vec3 ℝ, u.lenSqr ≤ 0 → u = ⟨0, 0, 0⟩ := by
    intro u h
    have e : u.lenSqr = u.x ^ 2 + u.y ^ 2 + u.z ^ 2 := by simp only [Vec3.lenSqr]; ring
    rw [e] at h
    have a1 := sq_nonneg u.x
    have a2 := sq_nonneg u.y
    have a3 := sq_nonneg u.z
    ext
    · exact pow_eq_zero_iff (n := 2) (by norm_num) |>.1 (by linarith)
    · exact pow_eq_zero_iff (n := 2) (by norm_num) |>.1 (by linarith)
    · exact pow_eq_zero_iff (n := 2) (by norm_num) |>.1 (by linarith)
  have hsub : ∀ a : Vec3 ℝ, a.sub base.pos = ⟨0, 0, 0⟩ → a = base.pos := by
    intro a h
    have hx := congrArg Vec3.x h
    have hy := congrArg Vec3.y h
    have hz := congrArg Vec3.z h
    simp only [Vec3.sub] at hx hy hz
    ext <;> linarith
  by_cases hall : ∀ c ∈ (autoTpose m st).1, c.parent = b.id → c.pos = base.pos
  · exact .inl hall
  · refine .inr ?_
    push Not at hall
    obtain ⟨e, he, hep, hne⟩ := hall
    cases hv : boneVec base (autoTpose m st).1 with
    | none => exact absurd (hsub _ (hzero _ (s2 hv e he (by rw [hid]; exact hep)))) hne
    | some v =>
      obtain ⟨⟨c, hc, hcp, rfl⟩, hmax⟩ := s1 v hv
      refine ⟨c, hc, by rw [← hid]; exact hcp, ?_, ?_, fun d hd hdp => hmax d hd (by rw [hid]; exact hdp)⟩
      · have := hh _ hv
        simp only [Vec3.sub] at this
        linarith
      · intro hceq
        have h1 := hmax e he (by rw [hid]; exact hep)
        rw [hceq] at h1
        have h2 : (base.pos.sub base.pos).lenSqr = 0 := by simp [Vec3.lenSqr, Vec3.sub]
        rw [h2] at h1
        exact hne (hsub _ (hzero _ h1))

/-- The distance of a bone to its parent stays when another bone is adjusted. -/
theorem step_lengths (st : List (Bone ℝ) × List (Object ℝ)) (k : Int) (hp : ParentsFirst st.1) (i j : Nat) (c p c' p' : Bone ℝ)
    (hc : st.1[i]? = some c) (hpj : st.1[j]? = some p) (hpar : 0 < c.parent) (he : c.parent = p.id)
    (hc' : (tposeStep st k).1[i]? = some c') (hp' : (tposeStep st k).1[j]? = some p') :
    (c'.pos.sub p'.pos).lenSqr = (c.pos.sub p.pos).lenSqr := by
  unfold tposeStep at hc' hp'
  cases hb : st.1.find? (fun b => b.id = k) with
  | none =>
    rw [hb] at hc' hp'
    simp only [hc, hpj, Option.some.injEq] at hc' hp'
    rw [hc', hp']
  | some b =>
    rw [hb] at hc' hp'
    have hbm := List.mem_of_find?_eq_some hb
    simp only at hc' hp'
    cases hv : boneVec b st.1 with
    | none =>
      have e : (boneAdjustX b st).1 = st.1 := by unfold boneAdjustX; rw [hv]
      rw [e] at hc' hp'
      simp only [hc, hpj, Option.some.injEq] at hc' hp'
      rw [hc', hp']
    | some v =>
      rw [boneAdjustX_eq b st v hv, List.getElem?_map] at hc' hp'
      simp only [hc, hpj, Option.map_some, Option.some.injEq] at hc' hp'
      have hspec := turning_spec_partial b.id st.1 (List.mem_map.2 ⟨b, hbm, rfl⟩) hp
      have hcm := List.mem_of_getElem? hc
      have hpm := List.mem_of_getElem? hpj
      rw [← hc', ← hp', (adjusted_fields _ _ _ _ c).2.2.2.1, (adjusted_fields _ _ _ _ p).2.2.2.1]
      have hq := adjustQuat_unit (adjustAngle v)
      by_cases hpt : p.id ∈ turning b.id st.1
      · have hct : c.id ∈ turning b.id st.1 := (hspec c.id).2 (.child c hcm hpar (by rw [he]; exact (hspec p.id).1 hpt))
        rw [if_pos hpt, if_pos hct]
        exact (turn_rigid _ hq b.pos c.pos c.pos p.pos).1
      · rw [if_neg hpt]
        split_ifs with hct
        · have key : ∀ k, Below st.1 b.id k → k = c.id → b.id = c.id := by
            intro k hk
            cases hk with
            | refl => exact id
            | child e hem hpe hbe =>
              intro hed
              have hed' := List.inj_on_of_nodup_map hp.1 hem hcm hed
              subst hed'
              rw [he] at hbe
              exact absurd ((hspec p.id).2 hbe) hpt
          have hcb : c = b := List.inj_on_of_nodup_map hp.1 hcm hbm (key _ ((hspec c.id).1 hct) rfl).symm
          rw [hcb, (turn_rigid _ hq b.pos b.pos b.pos b.pos).2.1]
        · rfl

/-- C155. If bones are listed after their parents, no bone gets longer or shorter; ids and the tree stay. -/
theorem autotpose_lengths_partial (m : Str → Bool) (st : List (Bone ℝ) × List (Object ℝ)) (hp : ParentsFirst st.1) :
    (autoTpose m st).1.map (fun b => (b.id, b.parent)) = st.1.map (fun b => (b.id, b.parent)) ∧
    ∀ (i j : Nat) (c p c' p' : Bone ℝ), st.1[i]? = some c → st.1[j]? = some p → 0 < c.parent → c.parent = p.id →
      (autoTpose m st).1[i]? = some c' → (autoTpose m st).1[j]? = some p' →
      (c'.pos.sub p'.pos).lenSqr = (c.pos.sub p.pos).lenSqr := by
  unfold autoTpose
  generalize (st.1.filter fun b => m b.name).map Bone.id = ids
  induction ids generalizing st with
  | nil =>
    refine ⟨rfl, ?_⟩
    intro i j c p c' p' hc hpj _ _ hc' hp'
    simp only [List.foldl_nil, hc, hpj, Option.some.injEq] at hc' hp'
    rw [hc', hp']
  | cons k ids ih =>
    rw [List.foldl_cons]
    have hsk := skeleton_step st k
    obtain ⟨h1, h2⟩ := ih (tposeStep st k) (parentsFirst_of_skeleton _ _ hsk.symm hp)
    refine ⟨h1.trans hsk, ?_⟩
    intro i j c p c' p' hc hpj hpar he hc' hp'
    have get : ∀ (k' : Nat) (b : Bone ℝ), st.1[k']? = some b →
        ∃ b0, (tposeStep st k).1[k']? = some b0 ∧ b0.id = b.id ∧ b0.parent = b.parent := by
      intro k' b hk
      have := congrArg (·[k']?) hsk
      simp only [skeleton, List.getElem?_map, hk, Option.map_some] at this
      obtain ⟨b0, h1, h2⟩ := Option.map_eq_some_iff.1 this
      simp only [Prod.mk.injEq] at h2
      exact ⟨b0, h1, h2.1, h2.2⟩
    obtain ⟨c1, hc1, e1, e2⟩ := get i c hc
    obtain ⟨p1, hp1, e3, e4⟩ := get j p hpj
    rw [h2 i j c1 p1 c' p' hc1 hp1 (by rw [e2]; exact hpar) (by rw [e2, e3]; exact he) hc' hp']
    exact step_lengths st k hp i j c p c1 p1 hc hpj hpar he hc1 hp1

/-! ### Examples -/

def poseBone (id parent : Int) (name : Str) (pos : Vec3 ℝ) : Bone ℝ :=
  ⟨id, name, 0, parent, pos, 0, 0, 0, [], none, none, none, [], [], ⟨0, 0, 0⟩⟩

/-- An arm that hangs down. -/
example : ∃ st : List (Bone ℝ) × List (Object ℝ), ParentsFirst st.1 ∧ (∀ b ∈ st.1, 0 < b.id) ∧
    (∃ b ∈ st.1, (decide (b.name = "arm".toList)) = true) ∧
    ∃ c ∈ st.1, c.parent = 1 ∧ c.pos ≠ ⟨0, 0, 0⟩ ∧ c.pos.y ≠ 0 := by
  refine ⟨([poseBone 1 0 "arm".toList ⟨0, 0, 0⟩, poseBone 2 1 "hand".toList ⟨3, -4, 0⟩], []), ⟨by simp [poseBone], ?_⟩, ?_, ?_, ?_⟩
  · intro i j b p hi hj hpar he
    match i, j, hi, hj with
    | 0, _, hi, _ => simp [poseBone] at hi; subst hi; simp at hpar
    | 1, 0, _, _ => omega
    | 1, 1, hi, hj => simp [poseBone] at hi hj; subst hi hj; simp at he
    | 1, j + 2, _, hj => simp at hj
    | i + 2, _, hi, _ => simp at hi
  · simp [poseBone]
  · exact ⟨_, List.mem_cons_self, by simp [poseBone]⟩
  · exact ⟨_, List.mem_cons_of_mem _ List.mem_cons_self, by simp [poseBone]⟩

theorem angle_right : adjustAngle ⟨1, 0, 0⟩ = 0 := by
  have : atan2 0 1 = 0 := by
    unfold atan2
    rw [show (⟨1, 0⟩ : ℂ) = 1 from rfl, Complex.arg_one]
  unfold adjustAngle
  simp [this, Real.pi_pos]

theorem angle_up : adjustAngle ⟨0, 1, 0⟩ = π / 2 := by
  have : atan2 1 0 = π / 2 := by
    unfold atan2
    rw [show (⟨0, 1⟩ : ℂ) = Complex.I from rfl, Complex.arg_I]
  unfold adjustAngle
  rw [this, if_neg (by rw [abs_of_pos (by positivity)]; exact lt_irrefl _)]
  ring

/-- C155 is false if a child is listed before its parent: the child is adjusted first and the parent turns it away again. -/
theorem autotpose_order_false : ∃ bones : List (Bone ℝ), (bones.map Bone.id).Nodup ∧ (∀ b ∈ bones, 0 < b.id) ∧
    ∃ base ∈ (autoTpose (fun _ => true) (bones, [])).1, ∃ c ∈ (autoTpose (fun _ => true) (bones, [])).1, c.parent = base.id ∧
      (∀ d ∈ (autoTpose (fun _ => true) (bones, [])).1, d.parent = base.id → d = c) ∧ c.pos.y ≠ base.pos.y := by
  refine ⟨[poseBone 2 1 [] ⟨0, 1, 0⟩, poseBone 3 2 [] ⟨1, 1, 0⟩, poseBone 1 0 [] ⟨0, 0, 0⟩], by simp [poseBone], by simp [poseBone], ?_⟩
  have h1 : tposeStep ([poseBone 2 1 [] ⟨0, 1, 0⟩, poseBone 3 2 [] ⟨1, 1, 0⟩, poseBone 1 0 [] ⟨0, 0, 0⟩], []) 2 =
      ([poseBone 2 1 [] ⟨0, 1, 0⟩, poseBone 3 2 [] ⟨1, 1, 0⟩, poseBone 1 0 [] ⟨0, 0, 0⟩], []) := by
    simp [tposeStep, boneAdjustX, boneVec, longerChild, poseBone, Vec3.sub, Vec3.lenSqr, FloatOps.lt, angle_right, turnBones,
      turning, turnPoint, adjustQuat_applyTo, addOffset]
  have h2 : tposeStep ([poseBone 2 1 [] ⟨0, 1, 0⟩, poseBone 3 2 [] ⟨1, 1, 0⟩, poseBone 1 0 [] ⟨0, 0, 0⟩], []) 3 =
      ([poseBone 2 1 [] ⟨0, 1, 0⟩, poseBone 3 2 [] ⟨1, 1, 0⟩, poseBone 1 0 [] ⟨0, 0, 0⟩], []) := by
    simp [tposeStep, boneAdjustX, boneVec, longerChild, poseBone]
  have h3 : (tposeStep ([poseBone 2 1 [] ⟨0, 1, 0⟩, poseBone 3 2 [] ⟨1, 1, 0⟩, poseBone 1 0 [] ⟨0, 0, 0⟩], []) 1).1 =
      [{ poseBone 2 1 [] ⟨-1, 0, 0⟩ with rotationOffset := ⟨π / 2, 0, 0⟩ },
        { poseBone 3 2 [] ⟨-1, 1, 0⟩ with rotationOffset := ⟨π / 2, 0, 0⟩ },
        { poseBone 1 0 [] ⟨0, 0, 0⟩ with rotationOffset := ⟨π / 2, 0, 0⟩ }] := by
    simp [tposeStep, boneAdjustX, boneVec, longerChild, poseBone, Vec3.sub, Vec3.lenSqr, FloatOps.lt, angle_up, turnBones,
      turning, turnPoint, adjustQuat_applyTo, addOffset]
  have h : (autoTpose (fun _ => true) ([poseBone 2 1 [] ⟨0, 1, 0⟩, poseBone 3 2 [] ⟨1, 1, 0⟩, poseBone 1 0 [] ⟨0, 0, 0⟩], [])).1 =
      [{ poseBone 2 1 [] ⟨-1, 0, 0⟩ with rotationOffset := ⟨π / 2, 0, 0⟩ },
        { poseBone 3 2 [] ⟨-1, 1, 0⟩ with rotationOffset := ⟨π / 2, 0, 0⟩ },
        { poseBone 1 0 [] ⟨0, 0, 0⟩ with rotationOffset := ⟨π / 2, 0, 0⟩ }] := by
    unfold autoTpose
    have e : ((([poseBone 2 1 [] ⟨0, 1, 0⟩, poseBone 3 2 [] ⟨1, 1, 0⟩, poseBone 1 0 [] ⟨0, 0, 0⟩] : List (Bone ℝ)).filter
        fun _ => true).map Bone.id) = [2, 3, 1] := by simp [poseBone]
    simp only [e, List.foldl_cons, List.foldl_nil]
    rw [h1, h2, h3]
  rw [h]
  refine ⟨_, List.mem_cons_self, _, List.mem_cons_of_mem _ List.mem_cons_self, rfl, ?_, ?_⟩
  · intro d hd hdp
    simp only [List.mem_cons, List.not_mem_nil, or_false] at hd
    rcases hd with rfl | rfl | rfl
    · simp [poseBone] at hdp
    · rfl
    · simp [poseBone] at hdp
  · simp [poseBone]

end Verif.Mqo
