import Verif.Mmd.PmxLemmas

/-! What the PMX parser delivers, whatever the bytes: every record fits the declared sizes. -/

namespace Verif.Mmd

open Verif.Geom

/-- Every successful run of `r` on less than 2 GiB ends with a value satisfying `P` (and does not
give back more input than it got). -/
def Post {α : Type} (r : Rd α) (P : α → Prop) : Prop :=
  ∀ s a s', s.length < 2 ^ 31 → r s = .ok (a, s') → s'.length ≤ s.length ∧ P a

theorem Post.bind {α β : Type} {r1 : Rd α} {r2 : α → Rd β} {P : α → Prop} {Q : β → Prop}
    (h1 : Post r1 P) (h2 : ∀ a, P a → Post (r2 a) Q) : Post (r1 >>= r2) Q := by
  intro s b s' hs h
  have h : (r1 s >>= fun p => r2 p.1 p.2) = .ok (b, s') := h
  cases hr : r1 s with
  | error e => rw [hr] at h; cases h
  | ok p =>
    obtain ⟨a, s1⟩ := p
    rw [hr] at h
    have h : r2 a s1 = .ok (b, s') := h
    obtain ⟨l1, p1⟩ := h1 s a s1 hs hr
    obtain ⟨l2, p2⟩ := h2 a p1 s1 b s' (by omega) h
    exact ⟨by omega, p2⟩

theorem Post.pure {α : Type} {a : α} {P : α → Prop} (h : P a) : Post (Pure.pure a) P := by
  intro s b s' _ hr
  have hr : Except.ok (a, s) = Except.ok (b, s') := hr
  simp only [Except.ok.injEq, Prod.mk.injEq] at hr
  obtain ⟨rfl, rfl⟩ := hr
  exact ⟨le_refl _, h⟩

theorem Post.throw {α : Type} {e : Stop} {P : α → Prop} : Post (throw e : Rd α) P := by
  intro s b s' _ hr
  have hr : Except.error e = Except.ok (b, s') := hr
  cases hr

theorem Post.mono {α : Type} {r : Rd α} {P Q : α → Prop} (h : Post r P) (hpq : ∀ a, P a → Q a) :
    Post r Q := fun s a s' hs hr => ⟨(h s a s' hs hr).1, hpq a (h s a s' hs hr).2⟩

theorem post_buf (n : Nat) : Post (readBuf n) fun o => ∀ b, o = some b → b.length = n ∧ n < 2 ^ 31 := by
  intro s a s' hs hr
  unfold readBuf at hr
  split_ifs at hr with h
  · simp only [Except.ok.injEq, Prod.mk.injEq] at hr
    obtain ⟨rfl, rfl⟩ := hr
    refine ⟨by simp, ?_⟩
    intro b hb
    cases hb
    exact ⟨by simp [h], by omega⟩
  · simp only [Except.ok.injEq, Prod.mk.injEq] at hr
    obtain ⟨rfl, rfl⟩ := hr
    exact ⟨by simp, by intro b hb; cases hb⟩

theorem post_LE (n : Nat) : Post (readLE n) (· < 256 ^ n) := by
  refine (post_buf n).bind fun o ho => ?_
  cases o with
  | none => exact Post.pure (Nat.pow_pos (by norm_num))
  | some b =>
    refine Post.pure ?_
    have := ofLe_lt b
    rwa [(ho b rfl).1] at this

theorem Post.any {α : Type} {r : Rd α} {P : α → Prop} (h : Post r P) : Post r fun _ => True :=
  h.mono fun _ _ => trivial

theorem post_U8 : Post readU8 fun _ => True := (post_LE 1).bind fun _ _ => Post.pure trivial
theorem post_U16 : Post readU16 fun _ => True := (post_LE 2).bind fun _ _ => Post.pure trivial
theorem post_float : Post readFloat fun _ => True := (post_LE 4).bind fun _ _ => Post.pure trivial
theorem post_int : Post readInt (· < 2 ^ 32) := (post_LE 4).mono fun a h => by norm_num at h ⊢; omega

theorem post_V2 : Post readV2 fun _ => True :=
  (post_buf 8).bind fun o _ => by cases o <;> exact Post.pure trivial
theorem post_V3 : Post readV3 fun _ => True :=
  (post_buf 12).bind fun o _ => by cases o <;> exact Post.pure trivial
theorem post_V4 : Post readV4 fun _ => True :=
  (post_buf 16).bind fun o _ => by cases o <;> exact Post.pure trivial

theorem toSigned_range (n u : Nat) (h : u < 256 ^ n) (hn : 0 < n) :
    -(256 ^ n : Nat) ≤ 2 * toSigned n u ∧ 2 * toSigned n u < (256 ^ n : Nat) := by
  obtain ⟨k, rfl⟩ : ∃ k, n = k + 1 := ⟨n - 1, by omega⟩
  unfold toSigned
  have he : 256 ^ (k + 1) = 2 * (128 * 256 ^ k) := by ring
  rw [he] at h ⊢
  generalize 128 * 256 ^ k = m at *
  split_ifs <;> push_cast <;> omega

theorem post_VInt (sz : UInt8) : Post (readVInt sz) (SFits sz) := by
  unfold readVInt
  by_cases h1 : sz = 1
  · rw [if_pos h1]
    refine (post_LE 1).bind fun u hu => Post.pure ?_
    have := toSigned_range 1 u hu (by norm_num)
    simp only [SFits, if_pos h1]
    norm_num at this ⊢; omega
  by_cases h2 : sz = 2
  · rw [if_neg h1, if_pos h2]
    refine (post_LE 2).bind fun u hu => Post.pure ?_
    have := toSigned_range 2 u hu (by norm_num)
    simp only [SFits, if_neg h1, if_pos h2]
    norm_num at this ⊢; omega
  by_cases h4 : sz = 4
  · rw [if_neg h1, if_neg h2, if_pos h4]
    refine (post_LE 4).bind fun u hu => Post.pure ?_
    have := toSigned_range 4 u hu (by norm_num)
    simp only [SFits, if_neg h1, if_neg h2, if_pos h4]
    norm_num at this ⊢; omega
  · rw [if_neg h1, if_neg h2, if_neg h4]
    exact Post.pure (by simp only [SFits, if_neg h1, if_neg h2, if_neg h4])

theorem post_VUInt (sz : UInt8) : Post (readVUInt sz) (UFits sz) := by
  unfold readVUInt
  by_cases h1 : sz = 1
  · rw [if_pos h1]
    refine (post_LE 1).bind fun u hu => Post.pure ?_
    simp only [UFits, if_pos h1]
    norm_num at hu ⊢; omega
  by_cases h2 : sz = 2
  · rw [if_neg h1, if_pos h2]
    refine (post_LE 2).bind fun u hu => Post.pure ?_
    simp only [UFits, if_neg h1, if_pos h2]
    norm_num at hu ⊢; omega
  by_cases h4 : sz = 4
  · rw [if_neg h1, if_neg h2, if_pos h4]
    refine (post_LE 4).bind fun u hu => Post.pure ?_
    simp only [UFits, if_neg h1, if_neg h2, if_pos h4]
    norm_num at hu ⊢; omega
  · rw [if_neg h1, if_neg h2, if_neg h4]
    exact Post.pure (by simp only [UFits, if_neg h1, if_neg h2, if_neg h4])

theorem post_attr (info : Bytes) (i : Nat) : Post (attr info i) fun b => info[i]? = some b := by
  unfold attr
  cases h : info[i]? with
  | none => exact Post.throw
  | some b => exact Post.pure rfl

theorem post_index (info : Bytes) (i : Nat) : Post (readIndex info i) (IdxOK info i) :=
  (post_attr info i).bind fun sz hsz => (post_VInt sz).mono fun _ hv => ⟨sz, hsz, hv⟩

theorem post_uindex (info : Bytes) (i : Nat) : Post (readUIndex info i) (UIdxOK info i) :=
  (post_attr info i).bind fun sz hsz => (post_VUInt sz).mono fun _ hv => ⟨sz, hsz, hv⟩

theorem units_length (b : Bytes) : 2 * (units b).length ≤ b.length := by
  induction b using units.induct with
  | case1 a b rest ih => simp only [units, List.length_cons]; omega
  | case2 b h =>
    match b, h with
    | [], _ => simp [units]
    | [_], _ => simp [units]
    | a :: b :: r, h => exact (h a b r rfl).elim

theorem units_lt (b : Bytes) : ∀ u ∈ units b, u < 65536 := by
  induction b using units.induct with
  | case1 a b rest ih =>
    simp only [units, List.mem_cons]
    rintro u (rfl | hu)
    · have := a.toNat_lt; have := b.toNat_lt; omega
    · exact ih u hu
  | case2 b h =>
    match b, h with
    | [], _ => simp [units]
    | [_], _ => simp [units]
    | a :: b :: r, h => exact (h a b r rfl).elim

theorem utf8Rune_length (r : Nat) : (utf8Rune r).length ≤ 4 := by
  unfold utf8Rune; split_ifs <;> simp

theorem utf8Rune_length_bmp (r : Nat) (h : r < 65536) : (utf8Rune r).length ≤ 3 := by
  unfold utf8Rune; split_ifs <;> simp

theorem utf16_length (l : List Nat) (h : ∀ u ∈ l, u < 65536) :
    ((utf16Decode l).flatMap utf8Rune).length ≤ 3 * l.length := by
  induction l using utf16Decode.induct with
  | case1 => simp [utf16Decode]
  | case2 a ha => simp [utf16Decode, ha, utf8Rune]
  | case3 a ha =>
    simp [utf16Decode, ha, utf8Rune_length_bmp a (h a (by simp))]
  | case4 a b rest hp ih =>
    simp only [utf16Decode, if_pos hp, List.flatMap_cons, List.length_append, List.length_cons]
    have := ih fun u hu => h u (by simp [hu])
    have := utf8Rune_length ((a - 0xd800) * 1024 + (b - 0xdc00) + 0x10000)
    omega
  | case5 a b rest hp hs ih =>
    simp only [utf16Decode, if_neg hp, if_pos hs, List.flatMap_cons, List.length_append,
      List.length_cons]
    have := ih fun u hu => h u (by simp only [List.mem_cons] at hu ⊢; tauto)
    have := utf8Rune_length_bmp 0xfffd (by norm_num)
    simp only [List.length_cons] at *
    omega
  | case6 a b rest hp hs ih =>
    simp only [utf16Decode, if_neg hp, if_neg hs, List.flatMap_cons, List.length_append,
      List.length_cons]
    have := ih fun u hu => h u (by simp only [List.mem_cons] at hu ⊢; tauto)
    have := utf8Rune_length_bmp a (h a (by simp))
    simp only [List.length_cons] at *
    omega

theorem units_zeros (n : Nat) : (utf16Decode (units (List.replicate (n * 2) 0))).flatMap utf8Rune =
    List.replicate n 0 := by
  have hu : ∀ n, units (List.replicate (n * 2) 0) = List.replicate n 0 := by
    intro n
    induction n with
    | zero => rfl
    | succ n ih =>
      rw [show (n + 1) * 2 = n * 2 + 1 + 1 by ring, List.replicate_succ, List.replicate_succ, units, ih]
      rfl
  have hd : ∀ n, utf16Decode (List.replicate n 0) = List.replicate n 0 := by
    intro n
    induction n with
    | zero => rfl
    | succ n ih =>
      cases n with
      | zero => rfl
      | succ n =>
        rw [List.replicate_succ, List.replicate_succ, utf16Decode, if_neg (by norm_num),
          if_neg (by norm_num), ← List.replicate_succ, ih]
  rw [hu, hd]
  induction n with
  | zero => rfl
  | succ n ih => rw [List.replicate_succ, List.flatMap_cons, ih]; rfl

theorem post_text (info : Bytes) : Post (readText info) fun t => LenOK t ∧ 0 < info.length := by
  unfold readText
  refine post_int.bind fun len hl => ?_
  refine (post_attr info 0).bind fun enc he => ?_
  have hi : 0 < info.length := by
    cases info with
    | nil => simp at he
    | cons a l => simp
  by_cases h : enc = 0
  · rw [if_pos h]
    refine (post_buf _).bind fun o ho => Post.pure ⟨?_, hi⟩
    cases o with
    | none =>
      simp only [Option.getD_none]
      rw [LenOK, units_zeros, List.length_replicate]
      omega
    | some b =>
      obtain ⟨h1, h2⟩ := ho b rfl
      have e1 := units_length b
      have e2 := utf16_length (units b) (units_lt b)
      simp only [Option.getD_some, LenOK]
      omega
  · rw [if_neg h]
    refine (post_buf _).bind fun o ho => Post.pure ⟨?_, hi⟩
    cases o with
    | none => simp only [Option.getD_none, LenOK, List.length_replicate]; omega
    | some b => simp only [Option.getD_some, LenOK]; rw [(ho b rfl).1]; omega

theorem post_orDie (n : Nat) : Post (readOrDie n) fun _ => True := by
  refine (post_buf n).bind fun o _ => ?_
  cases o with
  | none => exact Post.throw
  | some b => exact Post.pure trivial

theorem post_N {α : Type} {r : Rd α} {P : α → Prop} (h : Post r P) (n : Nat) :
    Post (readN n r) fun l => l.length = n ∧ ∀ a ∈ l, P a := by
  induction n with
  | zero => exact Post.pure (by simp)
  | succ n ih =>
    refine h.bind fun a ha => ih.bind fun l hl => Post.pure ?_
    refine ⟨by simp [hl.1], ?_⟩
    intro b hb
    rcases List.mem_cons.1 hb with rfl | hb
    · exact ha
    · exact hl.2 b hb

theorem post_section {α : Type} {r : Rd α} {P : α → Prop} (h : Post r P) :
    Post (readSection r) fun l => LenOK l ∧ ∀ a ∈ l, P a :=
  post_int.bind fun n hn => (post_N h n).mono fun l hl => ⟨by rw [LenOK, hl.1]; exact hn, hl.2⟩

/-- Weight lists as the reader builds them. -/
def WOK (sub1 : UInt32 → UInt32) (info : Bytes) (bw : List Int × List UInt32) : Prop :=
  ((bw.2.length ≤ 4 ∧ bw.1.length = bw.2.length) ∨ (bw.2.length = 11 ∧ bw.1.length = 2)) ∧
  (∀ b ∈ bw.1, IdxOK info attrBone b) ∧ ¬ (bw.2.length = 0 ∨ bw.2.length = 3) ∧
  weightsBack sub1 bw.1 bw.2 = bw

theorem post_weights (sub1 : UInt32 → UInt32) (info : Bytes) (t : UInt8) :
    Post (readWeights sub1 info t) (WOK sub1 info) := by
  unfold readWeights
  have hi := post_index info attrBone
  split_ifs with h0 h1 h2 h3
  · refine hi.bind fun b hb => Post.pure ⟨?_, ?_, ?_, ?_⟩
    · left; simp
    · simp [hb]
    · simp
    · simp [weightsBack]
  · refine hi.bind fun b0 hb0 => hi.bind fun b1 hb1 => post_float.bind fun w _ => Post.pure ⟨?_, ?_, ?_, ?_⟩
    · left; simp
    · simp [hb0, hb1]
    · simp
    · simp [weightsBack]
  · refine (post_N hi 4).bind fun bs hbs => (post_N post_float 4).bind fun ws hws => Post.pure ⟨?_, ?_, ?_, ?_⟩
    · left; simp [hbs.1, hws.1]
    · exact hbs.2
    · simp [hws.1]
    · simp [weightsBack, hws.1]
  · refine hi.bind fun b0 hb0 => hi.bind fun b1 hb1 => post_float.bind fun w _ =>
      (post_buf 36).bind fun o _ => ?_
    cases o with
    | none =>
      refine Post.pure ⟨?_, ?_, ?_, ?_⟩
      · right; simp
      · simp [hb0, hb1]
      · simp
      · simp [weightsBack]
    | some b =>
      refine Post.pure ⟨?_, ?_, ?_, ?_⟩
      · right; simp
      · simp [hb0, hb1]
      · simp
      · simp [weightsBack]
  · exact Post.throw

theorem decV4s_length (n : Nat) : ∀ b, (decV4s n b).length = n := by
  induction n with
  | zero => intro b; rfl
  | succ n ih => intro b; simp [decV4s, ih]

theorem post_vertex (sub1 : UInt32 → UInt32) (info : Bytes) :
    Post (readVertex sub1 info) fun v => VertexOK info v ∧ vertexBack sub1 v = v := by
  unfold readVertex
  refine (post_orDie 12).bind fun pos _ => (post_orDie 12).bind fun normal _ =>
    (post_orDie 8).bind fun uv _ => (post_attr info attrExtUV).bind fun n hn =>
    (post_orDie _).bind fun ext _ => post_U8.bind fun t _ => (post_weights sub1 info t).bind fun bw hbw =>
    post_float.bind fun edge _ => Post.pure ?_
  obtain ⟨h1, h2, h3, h4⟩ := hbw
  refine ⟨⟨⟨n, hn, decV4s_length _ _⟩, h1, h2, fun h => (h3 h).elim⟩, ?_⟩
  simp only [vertexBack, h4]

theorem post_face (info : Bytes) : Post (readFace info) (FaceOK info) := by
  have hi := post_uindex info attrVert
  exact hi.bind fun a ha => hi.bind fun b hb => hi.bind fun c hc => Post.pure ⟨ha, hb, hc⟩

theorem u8_range (v : UInt8) : (0 : Int) ≤ v.toNat ∧ (v.toNat : Int) < 256 := by
  have := v.toNat_lt; omega

theorem post_material (info : Bytes) : Post (readMaterial info) (MaterialOK info) := by
  unfold readMaterial
  have hi := post_index info attrTex
  refine (post_text info).bind fun name hname => (post_text info).bind fun nameEn hnameEn =>
    post_V4.bind fun _ _ => post_V3.bind fun _ _ => post_float.bind fun _ _ => post_V3.bind fun _ _ =>
    post_U8.bind fun _ _ => post_V4.bind fun _ _ => post_float.bind fun _ _ =>
    hi.bind fun tex htex => hi.bind fun env henv => post_U8.bind fun _ _ => post_U8.bind fun tt _ => ?_
  refine Post.bind (P := fun toon => if tt = 0 then IdxOK info attrTex toon else 0 ≤ toon ∧ toon < 256) ?_ ?_
  · by_cases h : tt = 0
    · simp only [if_pos h]; exact hi
    · simp only [if_neg h]; exact post_U8.bind fun v _ => Post.pure (u8_range v)
  · intro toon htoon
    refine (post_text info).bind fun memo hmemo => post_int.bind fun count hc => Post.pure ?_
    exact ⟨hname.1, hnameEn.1, htex, henv, htoon, hmemo.1, ⟨by simp only; omega, by simp only; omega⟩⟩

theorem post_link (info : Bytes) :
    Post (readLink info) fun l => IdxOK info attrBone l.targetID ∧ linkBack l = l := by
  unfold readLink
  refine (post_index info attrBone).bind fun t ht => post_U8.bind fun has _ => ?_
  split_ifs with h
  · exact post_V3.bind fun _ _ => post_V3.bind fun _ _ => Post.pure ⟨ht, by simp [linkBack]⟩
  · exact Post.pure ⟨ht, by simp [linkBack]⟩

theorem post_ik (info : Bytes) :
    Post (readIK info) fun k => IKOK info k ∧ k.links.map linkBack = k.links := by
  unfold readIK
  refine (post_index info attrBone).bind fun t ht => post_int.bind fun loop hl => post_float.bind fun _ _ =>
    post_int.bind fun n hn => (post_N (post_link info) n).bind fun l hll => Post.pure ?_
  refine ⟨⟨ht, ⟨by simp only; omega, by simp only; omega⟩, by rw [LenOK, hll.1]; exact hn,
    fun a ha => (hll.2 a ha).1⟩, ?_⟩
  conv_rhs => rw [← List.map_id l]
  exact List.map_congr_left fun a ha => (hll.2 a ha).2

theorem post_bone (info : Bytes) :
    Post (readBone info) fun b => BoneOK info b ∧ boneBack b = b := by
  unfold readBone
  have hi := post_index info attrBone
  refine (post_text info).bind fun name hname => (post_text info).bind fun nameEn hnameEn =>
    post_V3.bind fun pos _ => hi.bind fun parent hp => post_int.bind fun layer hl =>
    post_U16.bind fun flags _ => ?_
  refine Post.bind (P := fun t => (hasFlag flags 1 → IdxOK info attrBone t.1 ∧ t.2 = V3.zero) ∧
    (¬ hasFlag flags 1 → t.1 = -1)) ?_ ?_
  · split_ifs with h
    · exact hi.bind fun t ht => Post.pure ⟨fun _ => ⟨ht, rfl⟩, fun h' => (h' h).elim⟩
    · exact post_V3.bind fun p _ => Post.pure ⟨fun h' => (h h').elim, fun _ => rfl⟩
  intro tail htail
  refine Post.bind (P := fun t => (hasFlag flags 256 || hasFlag flags 512 → IdxOK info attrBone t.1) ∧
    (¬ (hasFlag flags 256 || hasFlag flags 512) → t = (0, 0))) ?_ ?_
  · split_ifs with h
    · exact hi.bind fun t ht => post_float.bind fun f _ => Post.pure ⟨fun _ => ht, fun h' => (h' h).elim⟩
    · exact Post.pure ⟨fun h' => (h h').elim, fun _ => rfl⟩
  intro inh hinh
  refine Post.bind (P := fun t => ¬ hasFlag flags 1024 → t = V3.zero) ?_ ?_
  · split_ifs with h
    · exact post_V3.mono fun _ _ h' => (h' h).elim
    · exact Post.pure fun _ => rfl
  intro axis haxis
  refine Post.bind (P := fun _ => True) ?_ ?_
  · split_ifs with h
    · exact post_V3.bind fun _ _ => post_V3
    · exact Post.pure trivial
  intro _ _
  refine Post.bind (P := fun _ => hasFlag flags 8192 → ∃ sz, info[attrBone]? = some sz) ?_ ?_
  · split_ifs with h
    · exact hi.mono fun v hv _ => ⟨hv.choose, hv.choose_spec.1⟩
    · exact Post.pure fun h' => (h h').elim
  intro _ hext
  refine Post.bind (P := fun k => (hasFlag flags 32 → IKOK info k ∧ k.links.map linkBack = k.links) ∧
    (¬ hasFlag flags 32 → k = IK.none)) ?_ ?_
  · split_ifs with h
    · exact (post_ik info).mono fun k hk => ⟨fun _ => hk, fun h' => (h' h).elim⟩
    · exact Post.pure ⟨fun h' => (h h').elim, fun _ => rfl⟩
  intro ik hik
  refine Post.pure ⟨⟨hname.1, hnameEn.1, hp, ⟨by simp only; omega, by simp only; omega⟩,
    fun h => (htail.1 h).1, hinh.1, hext, fun h => (hik.1 h).1⟩, ?_⟩
  have e1 : (if hasFlag flags 1 then tail.1 else -1) = tail.1 := by
    split_ifs with h
    · rfl
    · rw [htail.2 (by simpa using h)]
  have e2 : (if hasFlag flags 1 then V3.zero else tail.2) = tail.2 := by
    split_ifs with h
    · rw [(htail.1 h).2]
    · rfl
  have e3 : (if hasFlag flags 256 || hasFlag flags 512 then inh.1 else 0) = inh.1 := by
    split_ifs with h
    · rfl
    · rw [hinh.2 h]
  have e4 : (if hasFlag flags 256 || hasFlag flags 512 then inh.2 else 0) = inh.2 := by
    split_ifs with h
    · rfl
    · rw [hinh.2 h]
  have e5 : (if hasFlag flags 1024 then axis else V3.zero) = axis := by
    split_ifs with h
    · rfl
    · rw [haxis h]
  have e6 : (if hasFlag flags 32 then ({ ik with links := ik.links.map linkBack } : IK) else IK.none) = ik := by
    split_ifs with h
    · rw [(hik.1 h).2]
    · rw [hik.2 h]
  simp only [boneBack, e1, e2, e3, e4, e5, e6]

theorem post_morph (info : Bytes) : Post (readMorph info) (MorphOK info) := by
  unfold readMorph
  refine (post_text info).bind fun name hname => (post_text info).bind fun nameEn hnameEn =>
    post_U8.bind fun panel _ => post_U8.bind fun ty _ => post_int.bind fun n hn => ?_
  have len : ∀ {α : Type} (l : List α), l.length = n → LenOK l := fun l h => by rw [LenOK, h]; exact hn
  have nil : ∀ {α : Type}, LenOK ([] : List α) := by intro α; simp [LenOK]
  split_ifs with h0 h1 h2 h3 h8 hz
  · refine (post_N ((post_index info attrMorph).bind fun t ht => post_float.bind fun w _ =>
      Post.pure (P := fun g : MorphGroup => IdxOK info attrMorph g.target) ht) n).bind fun l hl => Post.pure ?_
    exact ⟨hname.1, hnameEn.1, ⟨Or.inr h0, len l hl.1, hl.2⟩, ⟨Or.inl rfl, nil, by simp⟩,
      ⟨Or.inl rfl, nil, by simp⟩, ⟨Or.inl rfl, nil, by simp⟩⟩
  · refine (post_N ((post_uindex info attrVert).bind fun t ht => post_V3.bind fun w _ =>
      Post.pure (P := fun g : MorphVertex => UIdxOK info attrVert g.target) ht) n).bind fun l hl => Post.pure ?_
    exact ⟨hname.1, hnameEn.1, ⟨Or.inl rfl, nil, by simp⟩, ⟨Or.inr h1, len l hl.1, hl.2⟩,
      ⟨Or.inl rfl, nil, by simp⟩, ⟨Or.inl rfl, nil, by simp⟩⟩
  · refine (post_N ((post_index info attrBone).bind fun t ht => post_V3.bind fun w _ => post_V4.bind fun _ _ =>
      Post.pure (a := ()) (P := fun _ => True) trivial) n).bind fun l hl => Post.pure ?_
    exact ⟨hname.1, hnameEn.1, ⟨Or.inl rfl, nil, by simp⟩, ⟨Or.inl rfl, nil, by simp⟩,
      ⟨Or.inl rfl, nil, by simp⟩, ⟨Or.inl rfl, nil, by simp⟩⟩
  · refine (post_N ((post_uindex info attrVert).bind fun t ht => post_V4.bind fun w _ =>
      Post.pure (P := fun g : MorphUV => UIdxOK info attrVert g.target) ht) n).bind fun l hl => Post.pure ?_
    exact ⟨hname.1, hnameEn.1, ⟨Or.inl rfl, nil, by simp⟩, ⟨Or.inl rfl, nil, by simp⟩,
      ⟨Or.inr h3, len l hl.1, hl.2⟩, ⟨Or.inl rfl, nil, by simp⟩⟩
  · refine (post_N (r := readMorphMaterial info) (P := fun g => IdxOK info attrMat g.target) ?_ n).bind
      fun l hl => Post.pure ?_
    · exact (post_index info attrMat).bind fun t ht => post_U8.bind fun _ _ => post_V4.bind fun _ _ =>
        post_V3.bind fun _ _ => post_float.bind fun _ _ => post_V3.bind fun _ _ => post_V4.bind fun _ _ =>
        post_float.bind fun _ _ => post_V4.bind fun _ _ => post_V4.bind fun _ _ => post_V4.bind fun _ _ =>
        Post.pure ht
    · exact ⟨hname.1, hnameEn.1, ⟨Or.inl rfl, nil, by simp⟩, ⟨Or.inl rfl, nil, by simp⟩,
        ⟨Or.inl rfl, nil, by simp⟩, ⟨Or.inr h8, len l hl.1, hl.2⟩⟩
  · exact Post.pure ⟨hname.1, hnameEn.1, ⟨Or.inl rfl, nil, by simp⟩, ⟨Or.inl rfl, nil, by simp⟩,
        ⟨Or.inl rfl, nil, by simp⟩, ⟨Or.inl rfl, nil, by simp⟩⟩
  · exact Post.throw

theorem post_display (info : Bytes) : Post (skipDisplayGroup info) fun _ => True := by
  unfold skipDisplayGroup
  refine (post_text info).bind fun _ _ => (post_text info).bind fun _ _ => post_U8.bind fun _ _ =>
    post_int.bind fun n _ => (post_N (P := fun _ => True) ?_ n).bind fun _ _ => Post.pure trivial
  unfold skipTarget
  refine post_U8.bind fun t _ => Post.bind (P := fun _ => True) ?_ fun _ _ => Post.pure trivial
  split_ifs
  · exact (post_index _ _).any
  · exact (post_index _ _).any

theorem post_body (info : Bytes) : Post (readRigidBody info) (BodyOK info) := by
  unfold readRigidBody
  exact (post_text info).bind fun _ h1 => (post_text info).bind fun _ h2 =>
    (post_index info attrBone).bind fun _ h3 => (post_VInt 1).bind fun _ h4 => (post_VInt 2).bind fun _ h5 =>
    post_U8.bind fun _ _ => post_V3.bind fun _ _ => post_V3.bind fun _ _ => post_V3.bind fun _ _ =>
    post_float.bind fun _ _ => post_float.bind fun _ _ => post_float.bind fun _ _ =>
    post_float.bind fun _ _ => post_float.bind fun _ _ => post_U8.bind fun _ _ =>
    Post.pure ⟨h1.1, h2.1, h3, h4, h5⟩

theorem post_joint (info : Bytes) : Post (readJoint info) fun j =>
    LenOK j.name ∧ LenOK j.nameEn ∧ IdxOK info attrRB j.body1 ∧ IdxOK info attrRB j.body2 := by
  unfold readJoint
  exact (post_text info).bind fun _ h1 => (post_text info).bind fun _ h2 => post_U8.bind fun _ _ =>
    (post_index info attrRB).bind fun _ h3 => (post_index info attrRB).bind fun _ h4 =>
    post_V3.bind fun _ _ => post_V3.bind fun _ _ => post_V3.bind fun _ _ => post_V3.bind fun _ _ =>
    post_V3.bind fun _ _ => post_V3.bind fun _ _ => post_V3.bind fun _ _ => post_V3.bind fun _ _ =>
    Post.pure ⟨h1.1, h2.1, h3, h4⟩

theorem post_header (fmt : Option Bytes) :
    Post (readHeader fmt) fun h => h.format = pmxMagic ∧ h.info.length < 256 := by
  unfold readHeader
  refine Post.bind (P := fun _ => True) ?_ fun format _ => ?_
  · cases fmt with
    | none => exact (post_buf 4).bind fun _ _ => Post.pure trivial
    | some f => exact Post.pure trivial
  by_cases hf : format = pmxMagic
  · rw [if_neg (not_not.2 hf)]
    refine post_float.bind fun v _ => post_U8.bind fun n _ => (post_buf _).bind fun o ho => Post.pure ⟨hf, ?_⟩
    have := n.toNat_lt
    cases o with
    | none => simpa using this
    | some b => simp only [Option.getD_some]; rw [(ho b rfl).1]; exact this
  · rw [if_pos hf]
    exact Post.bind (P := fun _ => False) Post.throw fun _ h => h.elim

/-- What is known of a document that the parser delivers. -/
structure Loaded (sub1 : UInt32 → UInt32) (d : Document) : Prop where
  format : d.header.format = pmxMagic
  ok : (d.joints = [] ∨ d.header.info[attrBone]? = d.header.info[attrRB]?) → DocOK d
  back : docBack sub1 d = { d with header := { d.header with info := 1 :: d.header.info.tail } }
  morphs : ∀ m ∈ d.morphs, MorphOK d.header.info m

theorem post_document (sub1 : UInt32 → UInt32) (fmt : Option Bytes) :
    Post (parsePMX sub1 fmt) (Loaded sub1) := by
  unfold parsePMX
  refine (post_header fmt).bind fun h hh => ?_
  unfold parseContent
  refine (post_text _).bind fun name h1 => (post_text _).bind fun nameEn h2 =>
    (post_text _).bind fun comment h3 => (post_text _).bind fun commentEn h4 =>
    (post_section (post_vertex sub1 _)).bind fun vs hvs => post_int.bind fun fn hfn =>
    (post_N (post_face _) _).bind fun fs hfs => (post_section (post_text _)).bind fun ts hts =>
    (post_section (post_material _)).bind fun ms hms => (post_section (post_bone _)).bind fun bs hbs =>
    (post_section (post_morph _)).bind fun mo hmo => (post_section (post_display _)).bind fun _ _ =>
    (post_section (post_body _)).bind fun bo hbo => (post_section (post_joint _)).bind fun js hjs =>
    Post.pure ?_
  have e1 : vs.map (vertexBack sub1) = vs := by
    conv_rhs => rw [← List.map_id vs]
    exact List.map_congr_left fun a ha => (hvs.2 a ha).2
  have e2 : bs.map boneBack = bs := by
    conv_rhs => rw [← List.map_id bs]
    exact List.map_congr_left fun a ha => (hbs.2 a ha).2
  refine ⟨hh.1, fun hj => ?_, ?_, hmo.2⟩
  · exact {
      info := ⟨h1.2, hh.2⟩
      texts := ⟨h1.1, h2.1, h3.1, h4.1⟩
      counts := ⟨hvs.1, by simp only [hfs.1]; omega, hts.1, hms.1, hbs.1, hmo.1, hbo.1, hjs.1⟩
      vertexes := fun v hv => (hvs.2 v hv).1
      faces := hfs.2
      textures := fun t ht => (hts.2 t ht).1
      materials := hms.2
      bones := fun b hb => (hbs.2 b hb).1
      morphs := hmo.2
      bodies := hbo.2
      joints := fun j hjm => by
        obtain ⟨a1, a2, a3, a4⟩ := hjs.2 j hjm
        refine ⟨a1, a2, a3, a4, ?_⟩
        rcases hj with hj | hj
        · simp only at hj hjm; rw [hj] at hjm; cases hjm
        · exact hj }
  · simp only [docBack, e1, e2, hh.1, pmxMagic]

end Verif.Mmd
