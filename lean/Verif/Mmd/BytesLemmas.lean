import Verif.Mmd.Pmx
import Mathlib.Tactic.Ring
import Mathlib.Tactic.Linarith

/-! Round-trip lemmas for the byte-level primitives. -/

namespace Verif.Mmd

open Verif.Geom

/-! ## Numbers -/

theorem ofLe_lt (b : Bytes) : ofLe b < 256 ^ b.length := by
  induction b with
  | nil => simp [ofLe]
  | cons a b ih =>
    simp only [ofLe, List.length_cons, pow_succ]
    have := a.toNat_lt
    omega

@[simp] theorem leBytes_length (k n : Nat) : (leBytes k n).length = k := by
  induction k generalizing n with
  | zero => rfl
  | succ k ih => simp [leBytes, ih]

theorem ofLe_leBytes (k n : Nat) : ofLe (leBytes k n) = n % 256 ^ k := by
  induction k generalizing n with
  | zero => simp [ofLe, leBytes, Nat.mod_one]
  | succ k ih =>
    simp only [ofLe, leBytes, ih, UInt8.toNat_ofNat', pow_succ 256]
    rw [Nat.mul_comm (256 ^ k) 256, Nat.mod_mul]

theorem leBytes_ofLe (b : Bytes) : leBytes b.length (ofLe b) = b := by
  induction b with
  | nil => rfl
  | cons a b ih =>
    simp only [List.length_cons, leBytes, ofLe]
    have h1 : (a.toNat + 256 * ofLe b) / 256 = ofLe b := by
      have := a.toNat_lt
      omega
    have h2 : UInt8.ofNat (a.toNat + 256 * ofLe b) = a := by
      apply UInt8.toNat_inj.1
      rw [UInt8.toNat_ofNat']
      have := a.toNat_lt
      omega
    rw [h1, h2, ih]

@[simp] theorem f32Bytes_length (v : UInt32) : (f32Bytes v).length = 4 := leBytes_length _ _

theorem ofLe_f32Bytes (v : UInt32) : UInt32.ofNat (ofLe (f32Bytes v)) = v := by
  rw [f32Bytes, ofLe_leBytes, Nat.mod_eq_of_lt (lt_of_lt_of_le v.toNat_lt (by norm_num))]
  exact UInt32.ofNat_toNat

theorem f32At_zero (v : UInt32) (rest : Bytes) : f32At (f32Bytes v ++ rest) 0 = v := by
  rw [f32At]
  simp only [Nat.mul_zero, List.drop_zero]
  rw [List.take_append_of_le_length (by simp), List.take_of_length_le (by simp), ofLe_f32Bytes]

theorem f32At_succ (v : UInt32) (rest : Bytes) (i : Nat) :
    f32At (f32Bytes v ++ rest) (i + 1) = f32At rest i := by
  rw [f32At, f32At]
  congr 3

theorem f32At_zero' (v : UInt32) : f32At (f32Bytes v) 0 = v := by
  have := f32At_zero v []
  rwa [List.append_nil] at this

theorem decV2_encV2 (v : V2) : decV2 (encV2 v) = v := by
  simp only [decV2, encV2, f32At_zero, f32At_succ, f32At_zero']

theorem decV3_encV3 (v : V3) : decV3 (encV3 v) = v := by
  simp only [decV3, encV3, f32At_zero, f32At_succ, f32At_zero']

theorem decV4_encV4 (v : V4) : decV4 (encV4 v) = v := by
  simp only [decV4, encV4, f32At_zero, f32At_succ, f32At_zero']

@[simp] theorem encV2_length (v : V2) : (encV2 v).length = 8 := by simp [encV2]
@[simp] theorem encV3_length (v : V3) : (encV3 v).length = 12 := by simp [encV3]
@[simp] theorem encV4_length (v : V4) : (encV4 v).length = 16 := by simp [encV4]

/-! ## The round-trip relation -/

/-- `w` appends exactly `bs` to the output. -/
def Wrote {α : Type} (w : Wr α) (bs : Bytes) (a : α) : Prop := ∀ out, w out = .ok (a, out ++ bs)

/-- `r`, run on an input that starts with `bs`, yields `a` and leaves the rest. -/
def Reads {α : Type} (r : Rd α) (bs : Bytes) (a : α) : Prop := ∀ rest, r (bs ++ rest) = .ok (a, rest)

/-- Reading what `w` wrote yields `a`, whatever follows. -/
def RT {α : Type} (w : Wr Unit) (r : Rd α) (a : α) : Prop := ∃ bs, Wrote w bs () ∧ Reads r bs a

theorem Wrote.bind {α β : Type} {w1 : Wr α} {w2 : α → Wr β} {b1 b2 : Bytes} {a : α} {b : β}
    (h1 : Wrote w1 b1 a) (h2 : Wrote (w2 a) b2 b) : Wrote (w1 >>= w2) (b1 ++ b2) b := by
  intro out
  show (w1 out >>= fun p => w2 p.1 p.2) = _
  rw [h1 out]
  show w2 a (out ++ b1) = _
  rw [h2, List.append_assoc]

theorem Reads.bind {α β : Type} {r1 : Rd α} {r2 : α → Rd β} {b1 b2 : Bytes} {a : α} {b : β}
    (h1 : Reads r1 b1 a) (h2 : Reads (r2 a) b2 b) : Reads (r1 >>= r2) (b1 ++ b2) b := by
  intro rest
  show (r1 (b1 ++ b2 ++ rest) >>= fun p => r2 p.1 p.2) = _
  rw [List.append_assoc, h1]
  show r2 a (b2 ++ rest) = _
  rw [h2]

/-- A writer step that writes nothing comes first. -/
theorem Wrote.bind0 {β : Type} {w : Wr β} {bs : Bytes} {b : β} (h : Wrote w bs b) :
    Wrote ((Pure.pure () : Wr Unit) >>= fun _ => w) bs b := fun out => by
  show (Except.ok ((), out) >>= fun p => w p.2) = _
  exact h out

theorem RT.seq {α β : Type} {w1 w2 : Wr Unit} {r1 : Rd α} {r2 : α → Rd β} {a : α} {b : β}
    (h1 : RT w1 r1 a) (h2 : RT w2 (r2 a) b) : RT (w1 >>= fun _ => w2) (r1 >>= r2) b := by
  obtain ⟨b1, hw1, hr1⟩ := h1
  obtain ⟨b2, hw2, hr2⟩ := h2
  exact ⟨b1 ++ b2, hw1.bind hw2, hr1.bind hr2⟩

theorem RT.pure {α : Type} (a : α) : RT (Pure.pure ()) (Pure.pure a) a :=
  ⟨[], fun out => by rw [List.append_nil]; rfl, fun _ => rfl⟩

/-- The last step of a record: the reader still assembles the value. -/
theorem RT.last {α β : Type} {w : Wr Unit} {r : Rd α} {a : α} {f : α → Rd β} {b : β}
    (h : RT w r a) (hf : f a = Pure.pure b) : RT w (r >>= f) b := by
  obtain ⟨b1, hw, hr⟩ := h
  refine ⟨b1, hw, ?_⟩
  have := hr.bind (b2 := []) (r2 := f) (b := b) (by rw [hf]; exact fun _ => rfl)
  rwa [List.append_nil] at this

/-- A step that writes and reads nothing at the end of the writer. -/
theorem RT.unit {α : Type} {w : Wr Unit} {r : Rd α} {a : α} (h : RT w r a) :
    RT (w >>= fun _ => Pure.pure ()) r a := by
  obtain ⟨b1, hw, hr⟩ := h
  refine ⟨b1, ?_, hr⟩
  have := hw.bind (b2 := []) (w2 := fun _ => (Pure.pure () : Wr Unit)) (b := ())
    (fun out => by rw [List.append_nil]; rfl)
  rwa [List.append_nil] at this

/-- The reader makes a step that the writer does not have. -/
theorem RT.skip {α β : Type} {w : Wr Unit} {r2 : α → Rd β} {a : α} {b : β}
    (h : RT w (r2 a) b) : RT w (Pure.pure a >>= r2) b := by
  obtain ⟨b1, hw, hr⟩ := h
  exact ⟨b1, hw, fun rest => by
    show (Except.ok (a, b1 ++ rest) >>= fun p => r2 p.1 p.2) = _
    exact hr rest⟩

theorem readBuf_append (n : Nat) (bs rest : Bytes) (h : bs.length = n) :
    readBuf n (bs ++ rest) = .ok (some bs, rest) := by
  subst h
  simp only [readBuf, List.length_append, Nat.le_add_right, if_true]
  simp

theorem reads_buf (bs : Bytes) : Reads (readBuf bs.length) bs (some bs) :=
  fun rest => readBuf_append _ bs rest rfl

theorem reads_buf' (n : Nat) (bs : Bytes) (h : bs.length = n) : Reads (readBuf n) bs (some bs) := by
  subst h; exact reads_buf bs

theorem Reads.map {α β : Type} {r : Rd α} {bs : Bytes} {a : α} {f : α → Rd β} {b : β}
    (h : Reads r bs a) (hf : f a = Pure.pure b) : Reads (r >>= f) bs b := by
  have := h.bind (b2 := []) (r2 := f) (b := b) (by rw [hf]; exact fun _ => rfl)
  rwa [List.append_nil] at this

theorem wrote_emit (bs : Bytes) : Wrote (emit bs) bs () := fun _ => rfl

theorem reads_LE (n : Nat) (bs : Bytes) (h : bs.length = n) : Reads (readLE n) bs (ofLe bs) :=
  (reads_buf' n bs h).map rfl

theorem rt_U8 (v : UInt8) : RT (writeU8 v) readU8 v :=
  ⟨[v], wrote_emit _, (reads_LE 1 [v] rfl).map (by simp [ofLe])⟩

theorem rt_U16 (v : UInt16) : RT (writeU16 v) readU16 v :=
  ⟨leBytes 2 v.toNat, wrote_emit _, (reads_LE 2 _ (by simp)).map (by
    rw [ofLe_leBytes, Nat.mod_eq_of_lt (lt_of_lt_of_le v.toNat_lt (by norm_num)), UInt16.ofNat_toNat])⟩

theorem rt_float (v : UInt32) : RT (writeFloat v) readFloat v :=
  ⟨f32Bytes v, wrote_emit _, (reads_LE 4 _ (by simp)).map (by rw [ofLe_f32Bytes])⟩

theorem ofLe_intBytes (n : Nat) (v : Int) : (ofLe (intBytes n v) : Int) = v % (256 ^ n : Nat) := by
  have hp : (0 : Int) < (256 ^ n : Nat) := by exact_mod_cast Nat.pow_pos (by norm_num)
  rw [intBytes, ofLe_leBytes]
  have h1 : 0 ≤ v % (256 ^ n : Nat) := Int.emod_nonneg _ hp.ne'
  have h2 : v % (256 ^ n : Nat) < (256 ^ n : Nat) := Int.emod_lt_of_pos _ hp
  rw [Nat.mod_eq_of_lt (by omega)]
  omega

theorem rt_int (v : Nat) (h : v < 2 ^ 32) : RT (writeInt v) readInt v :=
  ⟨intBytes 4 v, wrote_emit _, by
    have : ofLe (intBytes 4 v) = v := by
      have := ofLe_intBytes 4 v
      rw [Int.emod_eq_of_lt (by omega) (by norm_num; omega)] at this
      exact_mod_cast this
    have h2 := reads_LE 4 (intBytes 4 v) (by simp [intBytes])
    rwa [this] at h2⟩

/-- The value fits a signed field of the declared size; other sizes store nothing and read 0. -/
def SFits (sz : UInt8) (v : Int) : Prop :=
  if sz = 1 then -128 ≤ v ∧ v < 128
  else if sz = 2 then -32768 ≤ v ∧ v < 32768
  else if sz = 4 then -2147483648 ≤ v ∧ v < 2147483648
  else v = 0

/-- The value fits an unsigned field of the declared size. -/
def UFits (sz : UInt8) (v : Int) : Prop :=
  if sz = 1 then 0 ≤ v ∧ v < 256
  else if sz = 2 then 0 ≤ v ∧ v < 65536
  else if sz = 4 then 0 ≤ v ∧ v < 4294967296
  else v = 0

instance (sz : UInt8) (v : Int) : Decidable (SFits sz v) := by unfold SFits; infer_instance
instance (sz : UInt8) (v : Int) : Decidable (UFits sz v) := by unfold UFits; infer_instance

theorem toSigned_intBytes (n : Nat) (v : Int) (h : -(256 ^ n : Nat) ≤ 2 * v ∧ 2 * v < (256 ^ n : Nat)) :
    toSigned n (ofLe (intBytes n v)) = v := by
  have hi := ofLe_intBytes n v
  have hp : (0 : Int) < (256 ^ n : Nat) := by exact_mod_cast Nat.pow_pos (by norm_num)
  rw [toSigned]
  by_cases hv : 0 ≤ v
  · rw [Int.emod_eq_of_lt hv (by omega)] at hi
    rw [if_pos (by omega)]
    exact hi
  · have h3 : v % (256 ^ n : Nat) = v + (256 ^ n : Nat) := by
      rw [← Int.add_emod_right]
      exact Int.emod_eq_of_lt (by omega) (by omega)
    rw [h3] at hi
    rw [if_neg (by omega)]
    omega

theorem rt_VInt (sz : UInt8) (v : Int) (h : SFits sz v) : RT (writeVInt sz v) (readVInt sz) v := by
  unfold SFits at h
  unfold writeVInt readVInt
  by_cases h1 : sz = 1
  · simp only [if_pos h1] at h ⊢
    exact ⟨intBytes 1 v, wrote_emit _, (reads_LE 1 _ (by simp [intBytes])).map
      (by rw [toSigned_intBytes 1 v (by norm_num; omega)])⟩
  by_cases h2 : sz = 2
  · simp only [if_neg h1, if_pos h2] at h ⊢
    exact ⟨intBytes 2 v, wrote_emit _, (reads_LE 2 _ (by simp [intBytes])).map
      (by rw [toSigned_intBytes 2 v (by norm_num; omega)])⟩
  by_cases h4 : sz = 4
  · simp only [if_neg h1, if_neg h2, if_pos h4] at h ⊢
    exact ⟨intBytes 4 v, wrote_emit _, (reads_LE 4 _ (by simp [intBytes])).map
      (by rw [toSigned_intBytes 4 v (by norm_num; omega)])⟩
  · simp only [if_neg h1, if_neg h2, if_neg h4] at h ⊢
    rw [h]
    exact RT.pure 0

theorem rt_VUInt (sz : UInt8) (v : Int) (h : UFits sz v) : RT (writeVInt sz v) (readVUInt sz) v := by
  unfold UFits at h
  unfold writeVInt readVUInt
  by_cases h1 : sz = 1
  · simp only [if_pos h1] at h ⊢
    exact ⟨intBytes 1 v, wrote_emit _, (reads_LE 1 _ (by simp [intBytes])).map
      (by rw [ofLe_intBytes 1 v, Int.emod_eq_of_lt (by omega) (by norm_num; omega)])⟩
  by_cases h2 : sz = 2
  · simp only [if_neg h1, if_pos h2] at h ⊢
    exact ⟨intBytes 2 v, wrote_emit _, (reads_LE 2 _ (by simp [intBytes])).map
      (by rw [ofLe_intBytes 2 v, Int.emod_eq_of_lt (by omega) (by norm_num; omega)])⟩
  by_cases h4 : sz = 4
  · simp only [if_neg h1, if_neg h2, if_pos h4] at h ⊢
    exact ⟨intBytes 4 v, wrote_emit _, (reads_LE 4 _ (by simp [intBytes])).map
      (by rw [ofLe_intBytes 4 v, Int.emod_eq_of_lt (by omega) (by norm_num; omega)])⟩
  · simp only [if_neg h1, if_neg h2, if_neg h4] at h ⊢
    rw [h]
    exact RT.pure 0

theorem rt_V2 (v : V2) : RT (writeV2 v) readV2 v :=
  ⟨encV2 v, wrote_emit _, (reads_buf' 8 _ (by simp)).map (by simp only [decV2_encV2])⟩

theorem rt_V3 (v : V3) : RT (writeV3 v) readV3 v :=
  ⟨encV3 v, wrote_emit _, (reads_buf' 12 _ (by simp)).map (by simp only [decV3_encV3])⟩

theorem rt_V4 (v : V4) : RT (writeV4 v) readV4 v :=
  ⟨encV4 v, wrote_emit _, (reads_buf' 16 _ (by simp)).map (by simp only [decV4_encV4])⟩

theorem rt_all {α β : Type} (l : List α) (w : α → Wr Unit) (r : Rd β) (f : α → β)
    (h : ∀ a ∈ l, RT (w a) r (f a)) : RT (writeAll l w) (readN l.length r) (l.map f) := by
  induction l with
  | nil => exact RT.pure []
  | cons a l ih =>
    refine RT.seq (h a (by simp)) ?_
    exact RT.last (ih fun b hb => h b (by simp [hb])) rfl

theorem rt_section {α β : Type} (l : List α) (w : α → Wr Unit) (r : Rd β) (f : α → β)
    (hl : l.length < 2 ^ 32) (h : ∀ a ∈ l, RT (w a) r (f a)) :
    RT (writeSection l w) (readSection r) (l.map f) :=
  RT.seq (rt_int _ hl) (rt_all l w r f h)

end Verif.Mmd
