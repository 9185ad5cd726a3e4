import Verif.Fbx.BinarySpec
import Verif.Fbx.BinaryTotal

/-!
Helper lemmas for C32: reading an encoding of a node tree.
-/

namespace Verif.Fbx

open Verif.Mmd (Bytes ofLe leBytes toSigned ofLe_leBytes leBytes_length)

/-- The parser stands, without error, before `rest` at offset `off`. -/
structure At (d : Bytes) (seek : Bool) (ver : Nat) (off : Nat) (rest : Bytes) (s : BR) : Prop where
  data : s.data = d
  seek : s.seek = seek
  ver : s.version = ver
  real : s.real = off
  pos : s.pos = off
  err : s.err = none
  le : off ≤ d.length
  rest : d.drop off = rest

variable {d : Bytes} {seek : Bool} {ver off : Nat} {rest : Bytes} {s : BR}

theorem At.read {b : Bytes} (h : At d seek ver off (b ++ rest) s) (n : Nat) (hn : b.length = n) :
    (s.read n).1 = some b ∧ At d seek ver (off + n) rest (s.read n).2 := by
  have hlen : off + n ≤ d.length := by
    have := congrArg List.length h.rest
    simp at this; have := h.le; omega
  unfold BR.read
  rw [h.err]
  simp only
  rw [if_pos (by rw [h.real, h.data]; exact hlen)]
  refine ⟨?_, ⟨h.data, h.seek, h.ver, by simp [h.real], by simp [h.pos], by simp, hlen, ?_⟩⟩
  · simp only [h.data, h.real, h.rest]
    rw [← hn, List.take_left']
    rfl
  · rw [← List.drop_drop, h.rest, ← hn, List.drop_left']
    rfl

theorem At.readLE {n v : Nat} (h : At d seek ver off (leBytes n v ++ rest) s)
    (hv : v < 256 ^ n) : (s.readLE n).1 = v ∧ At d seek ver (off + n) rest (s.readLE n).2 := by
  obtain ⟨h1, h2⟩ := h.read n (leBytes_length n v)
  rw [readLE_state]
  refine ⟨?_, h2⟩
  unfold BR.readLE
  cases hr : s.read n with
  | mk a s' =>
    rw [hr] at h1
    simp only at h1
    subst h1
    simp only [ofLe_leBytes]
    exact Nat.mod_eq_of_lt hv

theorem At.readString {b : Bytes} (h : At d seek ver off (b ++ rest) s) (n : Nat)
    (hn : b.length = n) :
    (s.readString n).1 = b ∧ At d seek ver (off + n) rest (s.readString n).2 := by
  obtain ⟨h1, h2⟩ := h.read n hn
  rw [readString_state]
  refine ⟨?_, h2⟩
  unfold BR.readString
  cases hr : s.read n with
  | mk a s' =>
    rw [hr] at h1
    simp only at h1
    subst h1
    rfl

theorem At.readByte {b : UInt8} (h : At d seek ver off (b :: rest) s) :
    (s.readLE 1).1 = b.toNat ∧ At d seek ver (off + 1) rest (s.readLE 1).2 := by
  have : At d seek ver off (leBytes 1 b.toNat ++ rest) s := by
    simpa [leBytes] using h
  exact this.readLE (by have := b.toNat_lt; omega)

/-- A skip to the present position does nothing. -/
theorem At.skipTo (h : At d seek ver off rest s) :
    (s.skipTo off).1 = none ∧ At d seek ver off rest (s.skipTo off).2 := by
  unfold BR.skipTo
  rw [h.pos]
  rw [if_neg (by omega)]
  split
  · exact ⟨rfl, ⟨h.data, h.seek, h.ver, by simp, rfl, h.err, h.le, h.rest⟩⟩
  · refine ⟨by simp, ⟨h.data, h.seek, h.ver, by simp [h.real], by simp, h.err, h.le, h.rest⟩⟩

theorem splitLE_packed (w : Nat) (l : List Nat) (h : ∀ x ∈ l, x < 256 ^ w) :
    splitLE w l.length (packed w l) = l := by
  induction l with
  | nil => rfl
  | cons x l ih =>
    simp only [List.length_cons, splitLE, packed, List.flatMap_cons]
    rw [List.take_left' (leBytes_length w x), List.drop_left' (leBytes_length w x), ofLe_leBytes,
      Nat.mod_eq_of_lt (h x (by simp))]
    congr 1
    exact ih fun y hy => h y (by simp [hy])

theorem packed_length (w : Nat) (l : List Nat) : (packed w l).length = l.length * w := by
  induction l with
  | nil => simp [packed]
  | cons x l ih =>
    simp only [packed, List.flatMap_cons, List.length_append, leBytes_length, List.length_cons] at ih ⊢
    rw [ih, Nat.add_mul]; omega

theorem arrayTy_code (ty : NumTy) (c : UInt8) (h : arrayCode ty = some c) :
    arrayTy c.toNat = some ty ∧ scalarTy c.toNat = none ∧ c.toNat ≠ 83 ∧ c.toNat ≠ 82 := by
  cases ty <;> simp [arrayCode] at h <;> subst h <;> decide

theorem scalarTy_code (ty : NumTy) : scalarTy (scalarCode ty).toNat = some ty := by
  cases ty <;> decide

theorem readProp_spec (z : Zlib) {v : Value} {b : Bytes}
    (he : EncAttr z seek v b) (h : At d seek ver off (b ++ rest) s) :
    (readProp z s).1 = v ∧ At d seek ver (off + b.length) rest (readProp z s).2 := by
  cases he with
  | num ty b hb =>
    obtain ⟨h1, h2⟩ := h.readByte
    obtain ⟨h3, h4⟩ := h2.readLE hb
    unfold readProp
    simp only [h1, scalarTy_code, h3, true_and]
    simp only [List.length_cons, leBytes_length]
    rw [show off + (ty.width + 1) = off + 1 + ty.width by omega]
    exact h4
  | str b hb =>
    obtain ⟨h1, h2⟩ := h.readByte
    have h2' : At d seek ver (off + 1) (leBytes 4 b.length ++ (b ++ rest)) (s.readLE 1).2 := by
      simpa [List.append_assoc] using h2
    obtain ⟨h3, h4⟩ := h2'.readLE (n := 4) (v := b.length) (by omega)
    obtain ⟨h5, h6⟩ := h4.readString b.length rfl
    have hs : scalarTy (83 : UInt8).toNat = none := by decide
    unfold readProp
    simp only [h1, hs, h3, h5]
    refine ⟨by simp, ?_⟩
    have h83 : (83 : UInt8).toNat = 83 := rfl
    simp only [h83, if_true, List.length_cons, List.length_append, leBytes_length]
    rw [show off + (4 + b.length + 1) = off + 1 + 4 + b.length by omega]
    exact h6
  | raw b hb =>
    obtain ⟨h1, h2⟩ := h.readByte
    have h2' : At d seek ver (off + 1) (leBytes 4 b.length ++ (b ++ rest)) (s.readLE 1).2 := by
      simpa [List.append_assoc] using h2
    obtain ⟨h3, h4⟩ := h2'.readLE (n := 4) (v := b.length) (by omega)
    obtain ⟨h5, h6⟩ := h4.readString b.length rfl
    have hs : scalarTy (82 : UInt8).toNat = none := by decide
    unfold readProp
    simp only [h1, hs, h3, h5]
    have h82 : (82 : UInt8).toNat = 82 := rfl
    refine ⟨by simp [h82], ?_⟩
    simp only [h82, List.length_cons, List.length_append, leBytes_length]
    simp only [show ((82 : Nat) = 83) = False by simp, if_false, if_true]
    rw [show off + (4 + b.length + 1) = off + 1 + 4 + b.length by omega]
    exact h6
  | plain ty c l sz hc hl hx =>
    obtain ⟨h1, h2⟩ := h.readByte
    obtain ⟨t1, t2, t3, t4⟩ := arrayTy_code ty c hc
    have h2' : At d seek ver (off + 1) (leBytes 4 l.length ++ (leBytes 4 0 ++
        (leBytes 4 sz ++ (packed ty.width l ++ rest)))) (s.readLE 1).2 := by
      simpa [List.append_assoc] using h2
    obtain ⟨h3, h4⟩ := h2'.readLE (by omega)
    obtain ⟨h5, h6⟩ := h4.readLE (by omega)
    have h6' := h6.read 4 (leBytes_length 4 sz)
    have h7 := h6'.2
    rw [← readLE_state] at h7
    obtain ⟨h8, h9⟩ := h7.read (l.length * ty.width) (packed_length _ _)
    unfold readProp
    simp only [h1, t2, t3, t4, t1, if_false]
    unfold readPropArray
    simp only [h3, h5]
    unfold readElems
    simp only [if_true]
    generalize hs1 : (((s.readLE 1).2.readLE 4).2.readLE 4).2.readLE 4 = r at *
    obtain ⟨szv, s1⟩ := r
    simp only at *
    cases hr : s1.read (l.length * ty.width) with
    | mk a s2 =>
      rw [hr] at h8 h9
      simp only at h8 h9
      subst h8
      simp only [splitLE_packed _ _ hx, true_and]
      simp only [List.length_cons, List.length_append, leBytes_length, packed_length]
      rw [show off + (4 + (4 + (4 + l.length * ty.width)) + 1) =
        off + 1 + 4 + 4 + 4 + l.length * ty.width by omega]
      exact h9
  | deflated ty c l e zb hc hl hx he0 he1 hzb hinf hz =>
    obtain ⟨h1, h2⟩ := h.readByte
    obtain ⟨t1, t2, t3, t4⟩ := arrayTy_code ty c hc
    have h2' : At d seek ver (off + 1) (leBytes 4 l.length ++ (leBytes 4 e ++
        (leBytes 4 zb.length ++ (zb ++ rest)))) (s.readLE 1).2 := by
      simpa [List.append_assoc] using h2
    obtain ⟨h3, h4⟩ := h2'.readLE (by omega)
    obtain ⟨h5, h6⟩ := h4.readLE (by omega)
    obtain ⟨h7, h8⟩ := h6.readLE (by omega)
    have h10 := (h8.read zb.length rfl).2
    unfold readProp
    simp only [h1, t2, t3, t4, t1, if_false]
    unfold readPropArray
    simp only [h3, h5, h7]
    generalize (((s.readLE 1).2.readLE 4).2.readLE 4).2.readLE 4 = r at *
    obtain ⟨szv, s1⟩ := r
    simp only at *
    unfold readElems
    rw [if_neg (by omega)]
    have hin : (s1.data.drop s1.real).take zb.length = zb := by
      rw [h8.data, h8.real, h8.rest, List.take_left' rfl]
    simp only [hin, hinf, splitLE_packed _ _ hx, true_and]
    have hu := z.used_le zb (l.length * ty.width)
    simp only [List.length_cons, List.length_append, leBytes_length]
    have hle := h10.le
    have hdrop := h10.rest
    rw [show off + (4 + (4 + (4 + zb.length)) + 1) = off + 1 + 4 + 4 + 4 + zb.length by omega]
    have hp := h8.pos
    have hr := h8.real
    unfold BR.skipTo
    simp only
    rw [if_neg (by omega)]
    split
    · refine ⟨h8.data, h8.seek, h8.ver, ?_, ?_, h8.err, hle, hdrop⟩
      · simp only [hp]; omega
      · simp only [hp]; omega
    · rename_i hseek
      have hfull : z.used zb (l.length * ty.width) = zb.length := by
        rcases hz with hz | hz
        · rw [h8.seek] at hseek; exact absurd hz hseek
        · exact hz
      rw [hfull]
      have h0 : (s1.pos + (zb.length : Int) - (s1.pos + (zb.length : Nat))).toNat = 0 := by omega
      simp only [h0]
      refine ⟨h8.data, h8.seek, h8.ver, ?_, ?_, h8.err, hle, hdrop⟩
      · simp only; omega
      · simp only; omega

theorem readProps_spec (z : Zlib) {vs : List Value} {b : Bytes}
    (he : EncAttrs z seek vs b) (h : At d seek ver off (b ++ rest) s) :
    (readProps z vs.length s).1 = vs ∧
      At d seek ver (off + b.length) rest (readProps z vs.length s).2 := by
  induction he generalizing off s with
  | nil => exact ⟨rfl, by simpa [readProps] using h⟩
  | cons hv _ ih =>
    rename_i v vs b bs
    rw [List.append_assoc] at h
    obtain ⟨h1, h2⟩ := readProp_spec z hv h
    obtain ⟨h3, h4⟩ := ih h2
    simp only [List.length_cons, readProps, h.err, h1, h3, true_and]
    rw [List.length_append, ← Nat.add_assoc]
    exact h4

/-- A header field that fits. -/
def FieldOK (w v : Nat) : Prop := 2 * v < 256 ^ w ∨ (w = 4 ∧ v < 256 ^ w)

theorem At.readField {v : Nat} (h : At d seek ver off (leBytes (fieldWidth ver) v ++ rest) s)
    (hv : FieldOK (fieldWidth ver) v) :
    s.readField.1 = v ∧ At d seek ver (off + fieldWidth ver) rest s.readField.2 := by
  unfold BR.readField
  unfold fieldWidth at *
  rw [h.ver]
  by_cases hver : 7500 ≤ ver
  · simp only [hver, if_true] at *
    have hv' : 2 * v < 256 ^ 8 := by
      rcases hv with h | ⟨h, _⟩
      · exact h
      · omega
    obtain ⟨h1, h2⟩ := h.readLE (by omega)
    refine ⟨?_, h2⟩
    simp only [h1, toSigned]
    rw [if_pos hv']
  · simp only [hver, if_false] at *
    have hv' : v < 256 ^ 4 := by
      rcases hv with h | ⟨_, h⟩
      · omega
      · exact h
    obtain ⟨h1, h2⟩ := h.readLE hv'
    exact ⟨by rw [h1], h2⟩

/-- In a 64 bit header a field may also be a negative number; only its bits matter then. -/
theorem At.readField_u64 {v : Nat} (h : At d seek ver off (leBytes (fieldWidth ver) v ++ rest) s)
    (hv : v < 256 ^ fieldWidth ver) :
    u64 s.readField.1 = v ∧ At d seek ver (off + fieldWidth ver) rest s.readField.2 := by
  unfold BR.readField
  unfold fieldWidth at *
  rw [h.ver]
  by_cases hver : 7500 ≤ ver
  · simp only [hver, if_true] at *
    obtain ⟨h1, h2⟩ := h.readLE hv
    refine ⟨?_, h2⟩
    simp only [h1, toSigned, u64]
    split <;> omega
  · simp only [hver, if_false] at *
    obtain ⟨h1, h2⟩ := h.readLE hv
    refine ⟨?_, h2⟩
    simp only [h1, u64]; omega

theorem u64_ofNat (v : Nat) (h : v < 18446744073709551616) : u64 (v : Int) = v := by
  unfold u64; omega

theorem encAttr_length {z : Zlib} {seek : Bool} {v : Value} {b : Bytes} (h : EncAttr z seek v b) : 2 ≤ b.length := by
  cases h with
  | num ty b hb => cases ty <;> simp [NumTy.width]
  | str b hb => simp; omega
  | raw b hb => simp; omega
  | plain ty c l sz hc hl hx => simp; omega
  | deflated ty c l e zb hc hl hx he0 he1 hzb hinf hz => simp; omega

theorem encAttrs_length {z : Zlib} {seek : Bool} {vs : List Value} {b : Bytes} (h : EncAttrs z seek vs b) :
    2 * vs.length ≤ b.length := by
  induction h with
  | nil => simp
  | cons hv _ ih =>
    have := encAttr_length hv
    simp only [List.length_cons, List.length_append]
    omega

theorem leBytes_zero (n : Nat) : leBytes n 0 = List.replicate n 0 := by
  induction n with
  | zero => rfl
  | succ n ih => simp [leBytes, ih, List.replicate_succ]

theorem nullRecord_eq (w : Nat) : nullRecord w =
    leBytes w 0 ++ (leBytes w 0 ++ (leBytes w 0 ++ ([0] : Bytes))) := by
  have h1 : ([0] : Bytes) = List.replicate 1 0 := rfl
  rw [leBytes_zero, h1]
  simp only [nullRecord, List.replicate_append_replicate]
  congr 1
  omega

/-- A null record is skipped. -/
theorem readNode_null (z : Zlib) (fuel : Nat)
    (h : At d seek ver off (nullRecord (fieldWidth ver) ++ rest) s) :
    ∃ s', readNode z (fuel + 1) s = some (none, s') ∧
      At d seek ver (off + (3 * fieldWidth ver + 1)) rest s' := by
  rw [nullRecord_eq] at h
  simp only [List.append_assoc] at h
  have h0 : FieldOK (fieldWidth ver) 0 := .inl (Nat.pos_of_ne_zero (by simp))
  obtain ⟨h1, a1⟩ := h.readField h0
  obtain ⟨h2, a2⟩ := a1.readField h0
  obtain ⟨h3, a3⟩ := a2.readField h0
  obtain ⟨h4, a4⟩ := a3.readByte
  have a4' : At d seek ver (off + fieldWidth ver + fieldWidth ver + fieldWidth ver + 1)
    ([] ++ rest) (s.readField.2.readField.2.readField.2.readLE 1).2 := a4
  obtain ⟨h5, a5⟩ := a4'.readString 0 rfl
  unfold readNode
  simp only [h1, h2, h3, h4]
  have h6 : (0 : UInt8).toNat = 0 := rfl
  simp only [h6]
  refine ⟨((s.readField.2.readField.2.readField.2.readLE 1).2.readString 0).2, ?_, ?_⟩
  · rw [if_neg (by decide), if_pos (by decide)]
  · rw [show off + (3 * fieldWidth ver + 1) =
      off + fieldWidth ver + fieldWidth ver + fieldWidth ver + 1 + 0 by omega]
    exact a5

/-- The main induction: a record at the current position is read as the node it encodes, and the
parser stands behind it; the same for the list of children up to its end. -/
theorem readNode_spec (z : Zlib) (fuel : Nat) :
    (∀ (start : Nat) (n : Node) (b rest : Bytes) (s : BR), EncNode z seek (fieldWidth ver) start n b →
      b.length + 1 ≤ fuel → At d seek ver start (b ++ rest) s →
      ∃ s', readNode z fuel s = some (some n, s') ∧ At d seek ver (start + b.length) rest s') ∧
    (∀ (start : Nat) (ns : List Node) (b term rest : Bytes) (s : BR),
      EncNodes z seek (fieldWidth ver) start ns b →
      (term = [] ∨ term = nullRecord (fieldWidth ver)) →
      b.length + term.length + 2 ≤ fuel → At d seek ver start (b ++ (term ++ rest)) s →
      ∃ s', readChildren z fuel (start + b.length + term.length : Nat) s = some (ns, s') ∧
        At d seek ver (start + b.length + term.length) rest s') := by
  induction fuel with
  | zero => exact ⟨fun _ _ _ _ _ _ h => by omega, fun _ _ _ _ _ _ _ _ h => by omega⟩
  | succ f ih =>
    have hw : fieldWidth ver = 4 ∨ fieldWidth ver = 8 := by
      unfold fieldWidth; split <;> simp
    constructor
    · intro start n b rest s he hl h
      cases he with
      | mk _ stop name attrs children props kids term _ hname hattrs hprops hkids hterm hstop
          hfit hb =>
      subst hb
      simp only [List.length_append, List.length_cons, leBytes_length] at hl
      have hb : start + (leBytes (fieldWidth ver) stop ++ (leBytes (fieldWidth ver) attrs.length ++
          (leBytes (fieldWidth ver) props.length ++ (UInt8.ofNat name.length ::
            (name ++ (props ++ (kids ++ term))))))).length = stop := by
        simp only [List.length_append, List.length_cons, leBytes_length]
        rw [hstop]; omega
      rw [hb]
      have hpl := encAttrs_length hprops
      have hbig : 256 ^ fieldWidth ver ≤ 18446744073709551616 := by
        rcases hw with e | e <;> rw [e] <;> decide
      have hstop' : stop < 256 ^ fieldWidth ver := by rcases hfit with h | ⟨_, h⟩ <;> omega
      have hps : props.length < stop := by omega
      have hfp : FieldOK (fieldWidth ver) props.length := by
        rcases hfit with h | ⟨h, h'⟩
        · left; omega
        · right; exact ⟨h, by omega⟩
      have hfa : FieldOK (fieldWidth ver) attrs.length := by
        rcases hfit with h | ⟨h, h'⟩
        · left; omega
        · right; exact ⟨h, by omega⟩
      simp only [List.append_assoc, List.cons_append] at h
      obtain ⟨h1, a1⟩ := h.readField hfit
      obtain ⟨h2, a2⟩ := a1.readField hfa
      obtain ⟨h3, a3⟩ := a2.readField hfp
      obtain ⟨h4, a4⟩ := a3.readByte
      have hnl : (UInt8.ofNat name.length).toNat = name.length := by
        simp only [UInt8.toNat_ofNat']; omega
      rw [hnl] at h4
      obtain ⟨h5, a5⟩ := a4.readString name.length rfl
      obtain ⟨h6, a6⟩ := readProps_spec z hprops a5
      unfold readNode
      simp only [h1, h2, h3, h4, h5]
      rw [if_neg (by rw [u64_ofNat _ (by omega), u64_ofNat _ (by omega)]; omega),
        if_neg (by omega)]
      simp only [Int.toNat_natCast, h6]
      generalize (readProps z attrs.length
        ((s.readField.2.readField.2.readField.2.readLE 1).2.readString name.length).2).2 = t at *
      rw [if_neg (by rw [a6.err]; simp)]
      have hoff : start + fieldWidth ver + fieldWidth ver + fieldWidth ver + 1 + name.length +
          props.length = start + (3 * fieldWidth ver + 1 + name.length + props.length) := by omega
      rw [hoff] at a6
      obtain ⟨t', hc, a7⟩ := ih.2 _ children kids term rest t hkids hterm (by omega) a6
      have hst : start + (3 * fieldWidth ver + 1 + name.length + props.length) + kids.length +
          term.length = stop := by rw [hstop]; omega
      rw [hst] at hc a7
      simp only [hc, a7.err]
      obtain ⟨k1, a8⟩ := a7.skipTo
      refine ⟨_, by simp only [k1]; rw [if_neg (by simp)], ?_⟩
      exact ⟨a8.data, a8.seek, a8.ver, a8.real, a8.pos, rfl, a8.le, a8.rest⟩
    · intro start ns b term rest s he hterm hl h
      cases he with
      | nil =>
        rcases hterm with rfl | rfl
        · refine ⟨s, ?_, by simpa using h⟩
          unfold readChildren
          rw [if_neg (by rw [h.pos]; simp)]
        · have hnl : (nullRecord (fieldWidth ver)).length = 3 * fieldWidth ver + 1 := by
            simp [nullRecord]
          simp only [List.nil_append] at h
          match f, hl with
          | f + 1, hl =>
            obtain ⟨s1, e1, a1⟩ := readNode_null z f h
            unfold readChildren
            rw [if_pos (by rw [h.pos, hnl]; exact ⟨by simp; omega, h.err⟩)]
            simp only [e1]
            refine ⟨s1, ?_, ?_⟩
            · unfold readChildren
              rw [if_neg (by rw [a1.pos, hnl]; simp)]
              simp
            · rw [hnl]; simpa [Nat.add_assoc] using a1
      | cons _ n ns b1 bs _ hn hns hout =>
        subst hout
        simp only [List.append_assoc, List.length_append] at h hl ⊢
        have hpos : 13 ≤ b1.length := by
          cases hn with
          | mk _ stop name attrs children props kids term _ _ _ _ _ _ _ _ hb =>
            subst hb
            simp only [List.length_append, List.length_cons, leBytes_length]
            omega
        obtain ⟨s1, e1, a1⟩ := ih.1 start n b1 _ s hn (by omega) h
        obtain ⟨s2, e2, a2⟩ := ih.2 (start + b1.length) ns bs term rest s1 hns hterm (by omega) a1
        unfold readChildren
        rw [if_pos ⟨by rw [h.pos]; omega, h.err⟩]
        simp only [e1]
        rw [show start + b1.length + bs.length + term.length =
          start + (b1.length + bs.length) + term.length by omega] at e2 a2
        simp only [e2]
        exact ⟨s2, rfl, a2⟩

/-- Behind the last node the parser stops with end-of-file and adds no node. -/
theorem readRoots_tail (z : Zlib) {tail : Bytes} (ht : EncTail (fieldWidth ver) d.length tail) :
    ∀ (fuel off : Nat) (s : BR), tail.length + 4 ≤ fuel → At d seek ver off tail s →
    ∃ s', readRoots z fuel s = some ([], s') ∧ s'.err = some .eof := by
  have hend : ∀ (fuel : Nat) (s : BR), 3 ≤ fuel → s.err = none → s.data.length ≤ s.real →
      ∃ s', readRoots z fuel s = some ([], s') ∧ s'.err = some .eof := by
    intro fuel s hf he hr
    match fuel, hf with
    | f + 3, _ =>
      have hread : ∀ n, 0 < n → s.read n = (none, { s with err := some .eof }) := by
        intro n hn
        unfold BR.read
        rw [he]
        simp only
        rw [if_neg (by omega), if_neg (by omega)]
        have : s.data.length - s.real = 0 := by omega
        simp [this]
      have hread' : ∀ n, (BR.read { s with err := some .eof } n) =
          (none, { s with err := some .eof }) := by
        intro n; simp [BR.read]
      have f1 : s.readField = (0, { s with err := some .eof }) := by
        unfold BR.readField BR.readLE
        split <;> simp [hread, toSigned]
      have f2 : (BR.readField { s with err := some .eof }) = (0, { s with err := some .eof }) := by
        unfold BR.readField BR.readLE
        split <;> simp [hread', toSigned]
      have f3 : (BR.readLE { s with err := some .eof } 1) = (0, { s with err := some .eof }) := by
        simp [BR.readLE, hread']
      have f4 : (BR.readString { s with err := some .eof } 0) =
          ([], { s with err := some .eof }) := by
        simp [BR.readString, hread']
      refine ⟨{ s with err := some .eof }, ?_, rfl⟩
      simp [readRoots, he, readNode, f1, f2, f3, f4, u64]
  have hwpos : 4 ≤ fieldWidth ver := by unfold fieldWidth; split <;> omega
  induction ht with
  | nil =>
    intro fuel off s hf h
    refine hend fuel s (by omega) h.err ?_
    rw [h.data, h.real]
    have := congrArg List.length h.rest
    simp at this
    omega
  | @null t _ ih =>
    intro fuel off s hf h
    have hnl : (nullRecord (fieldWidth ver)).length = 3 * fieldWidth ver + 1 := by
      simp [nullRecord]
    rw [List.length_append, hnl] at hf
    match fuel, hf with
    | f + 2, hf =>
      obtain ⟨s1, e1, a1⟩ := readNode_null z f h
      obtain ⟨s2, e2, k2⟩ := ih (f + 1) _ s1 (by omega) a1
      refine ⟨s2, ?_, k2⟩
      unfold readRoots
      simp only [h.err, e1, e2]
      rfl
  | footer next nprop propsz name rest hnext hfit hnp hps hinv hname =>
    intro fuel off s hf h
    obtain ⟨h1, a1⟩ := h.readField hfit
    obtain ⟨h2, a2⟩ := a1.readField_u64 hnp
    obtain ⟨h3, a3⟩ := a2.readField_u64 hps
    obtain ⟨h4, a4⟩ := a3.readByte
    have hnl : (UInt8.ofNat name.length).toNat = name.length := by
      simp only [UInt8.toNat_ofNat']; omega
    rw [hnl] at h4
    obtain ⟨h5, a5⟩ := a4.readString name.length rfl
    match fuel, hf with
    | f + 2, hf =>
      unfold readRoots
      simp only [h.err]
      unfold readNode
      simp only [h1, h2, h3, h4]
      rw [if_pos (by omega)]
      generalize ((s.readField.2.readField.2.readField.2.readLE 1).2.readString name.length).2 = t
        at *
      have hle := a5.le
      have key : ∀ w : BR, ((w.err = none ∧ w.data.length ≤ w.real) ∨ w.err = some .eof) →
          ∃ s', readRoots z (f + 1) w = some ([], s') ∧ s'.err = some .eof := by
        intro w hw
        rcases hw with ⟨k1, k2⟩ | k1
        · exact hend (f + 1) w (by omega) k1 k2
        · exact ⟨w, by simp [readRoots, k1], k1⟩
      have hk : ∃ s', readRoots z (f + 1)
          { (t.skipTo (next : Int)).2 with err := (t.skipTo (next : Int)).1 } = some ([], s') ∧
          s'.err = some .eof := by
        apply key
        unfold BR.skipTo
        rw [a5.pos, if_neg (by omega)]
        split
        · left
          exact ⟨rfl, by simp only [a5.data]; omega⟩
        · rw [a5.data, a5.real]
          by_cases hlt : min ((next : Int) - ((off + fieldWidth ver + fieldWidth ver +
              fieldWidth ver + 1 + name.length : Nat) : Int)).toNat
              (d.length - (off + fieldWidth ver + fieldWidth ver + fieldWidth ver + 1 +
                name.length)) < ((next : Int) - ((off + fieldWidth ver + fieldWidth ver +
              fieldWidth ver + 1 + name.length : Nat) : Int)).toNat
          · right
            simp only [hlt, if_true]
          · left
            simp only [hlt, if_false]
            exact ⟨trivial, by omega⟩
      obtain ⟨s', e, k⟩ := hk
      refine ⟨s', ?_, k⟩
      simp only [e]
      rfl

theorem readRoots_spec (z : Zlib) {tail : Bytes}
    (ht : EncTail (fieldWidth ver) d.length tail) (ns : List Node) :
    ∀ (fuel start : Nat) (b : Bytes) (s : BR),
    EncNodes z seek (fieldWidth ver) start ns b → b.length + tail.length + 4 ≤ fuel →
    At d seek ver start (b ++ tail) s →
    ∃ s', readRoots z fuel s = some (ns, s') ∧ s'.err = some .eof := by
  induction ns with
  | nil =>
    intro fuel start b s he hf h
    cases he
    exact readRoots_tail z ht fuel start s (by simpa using hf) h
  | cons n ns ih =>
    intro fuel start b s he hf h
    cases he with
    | cons _ _ _ b1 bs _ hn hns hout =>
      subst hout
      simp only [List.append_assoc, List.length_append] at h hf
      have hpos : 1 ≤ b1.length := by
        cases hn with
        | mk _ stop name attrs children props kids term _ _ _ _ _ _ _ _ hb =>
          subst hb
          simp only [List.length_append, List.length_cons]
          omega
      match fuel, hf with
      | f + 1, hf =>
        obtain ⟨s1, e1, a1⟩ := (readNode_spec z f).1 start n b1 _ s hn (by omega) h
        obtain ⟨s2, e2, k2⟩ := ih f _ bs s1 hns (by omega) a1
        refine ⟨s2, ?_, k2⟩
        unfold readRoots
        simp only [h.err, e1, e2]
        rfl

theorem parse_encoded_aux (z : Zlib) (seek : Bool) (version : Nat) (nodes : List Node) (out : Bytes)
    (h : EncFile z seek version nodes out) :
    parse z seek out = some (.ok (.mk b! "_FBX_ROOT" [] nodes)) := by
  cases h with
  | mk u v body tail _ hver hu hv hbody htail hout =>
  subst hv
  rw [← show magic = b! "Kaydara FBX Binary  " ++ [0] from rfl] at hout
  have hm : magic.length = 21 := by decide
  have a0 : At out seek 0 0 (magic ++ (u ++ (leBytes 4 version ++ (body ++ tail))))
      { data := out, seek := seek, real := 0, pos := 0, version := 0, err := none } :=
    ⟨rfl, rfl, rfl, rfl, rfl, rfl, Nat.zero_le _, by simpa using hout⟩
  obtain ⟨h1, a1⟩ := a0.readString 21 hm
  have a2 := (a1.read 2 hu).2
  rw [← readLE_state] at a2
  obtain ⟨h3, a3⟩ := a2.readLE (by omega)
  unfold parse
  simp only [h1, h3]
  rw [if_neg (by simp)]
  generalize ((BR.readString ⟨out, seek, 0, 0, 0, none⟩ 21).2.readLE 2).2.readLE 4 = r at *
  obtain ⟨v, s⟩ := r
  simp only at *
  have a4 : At out seek version 27 (body ++ tail) { s with version := version } :=
    ⟨a3.data, a3.seek, rfl, a3.real, a3.pos, a3.err, a3.le, a3.rest⟩
  have hlen : body.length + tail.length + 27 = out.length := by
    rw [hout]
    simp only [List.length_append, hm, hu, leBytes_length]
    omega
  obtain ⟨s', e, k⟩ := readRoots_spec z htail nodes (out.length + 5) 27 body
    { s with version := version } hbody (by omega) a4
  simp only [e, k]
  simp

end Verif.Fbx
