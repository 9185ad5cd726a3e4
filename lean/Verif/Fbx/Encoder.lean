import Verif.Fbx.BinarySpec

/-!
A reference encoder for the binary format: every tree that fits into the format has an encoding in
the sense of `BinarySpec`. The repository has no binary writer; this is only part of the
specification of the parser.
-/

namespace Verif.Fbx

open Verif.Mmd (Bytes leBytes leBytes_length)

/-- Values that the binary format can hold. -/
def ValidAttr : Value → Prop
  | .num ty b => b < 256 ^ ty.width
  | .str b => b.length < 2 ^ 32
  | .raw b => b.length < 2 ^ 32
  | .arr ty l => ty ≠ .u8 ∧ l.length < 2 ^ 32 ∧ ∀ x ∈ l, x < 256 ^ ty.width
  | _ => False

/-- One attribute, arrays uncompressed. -/
def encodeAttr : Value → Bytes
  | .num ty b => scalarCode ty :: leBytes ty.width b
  | .str b => 83 :: (leBytes 4 b.length ++ b)
  | .raw b => 82 :: (leBytes 4 b.length ++ b)
  | .arr ty l => (arrayCode ty).getD 0 ::
      (leBytes 4 l.length ++ (leBytes 4 0 ++ (leBytes 4 (l.length * ty.width) ++
        packed ty.width l)))
  | _ => []

def encodeAttrs (l : List Value) : Bytes := l.flatMap encodeAttr

mutual
/-- Bytes of the record of a node; children are always followed by a null record. -/
def nodeSize (w : Nat) : Node → Nat
  | .mk name attrs children =>
    3 * w + 1 + name.length + (encodeAttrs attrs).length + nodesSize w children +
      if children.isEmpty then 0 else 3 * w + 1
def nodesSize (w : Nat) : List Node → Nat
  | [] => 0
  | n :: ns => nodeSize w n + nodesSize w ns
end

mutual
/-- The record of a node that starts at offset `start`. -/
def encodeNode (w : Nat) : Nat → Node → Bytes
  | start, .mk name attrs children =>
    leBytes w (start + nodeSize w (.mk name attrs children)) ++ (leBytes w attrs.length ++
      (leBytes w (encodeAttrs attrs).length ++ (UInt8.ofNat name.length :: (name ++
        (encodeAttrs attrs ++ (encodeNodes w
          (start + (3 * w + 1 + name.length + (encodeAttrs attrs).length)) children ++
          if children.isEmpty then [] else nullRecord w))))))
def encodeNodes (w : Nat) : Nat → List Node → Bytes
  | _, [] => []
  | start, n :: ns => encodeNode w start n ++ encodeNodes w (start + nodeSize w n) ns
end

mutual
/-- Trees that the binary format can hold. -/
def ValidNode : Node → Prop
  | .mk name attrs children => name.length < 256 ∧ attrs.length < 2 ^ 32 ∧
      (∀ v ∈ attrs, ValidAttr v) ∧ ValidNodes children
def ValidNodes : List Node → Prop
  | [] => True
  | n :: ns => ValidNode n ∧ ValidNodes ns
end

/-- A whole file, with a null record behind the last node and no footer. -/
def encodeFile (version : Nat) (nodes : List Node) : Bytes :=
  magic ++ ([26, 0] ++ (leBytes 4 version ++ (encodeNodes (fieldWidth version) 27 nodes ++
    nullRecord (fieldWidth version))))

theorem encodeAttr_enc (z : Zlib) (seek : Bool) (v : Value) (h : ValidAttr v) :
    EncAttr z seek v (encodeAttr v) := by
  cases v with
  | num ty b => exact .num ty b h
  | str b => exact .str b h
  | raw b => exact .raw b h
  | arr ty l =>
    obtain ⟨h1, h2, h3⟩ := h
    cases hc : arrayCode ty with
    | none => cases ty <;> simp [arrayCode] at hc h1
    | some c =>
      have := EncAttr.plain (z := z) (seek := seek) ty c l (l.length * ty.width) hc h2 h3
      simpa [encodeAttr, hc] using this
  | int _ => exact h.elim
  | nilArr _ => exact h.elim
  | none' => exact h.elim

theorem encodeAttrs_enc (z : Zlib) (seek : Bool) (l : List Value) (h : ∀ v ∈ l, ValidAttr v) :
    EncAttrs z seek l (encodeAttrs l) := by
  induction l with
  | nil => exact .nil
  | cons v l ih =>
    exact .cons (encodeAttr_enc z seek v (h v (by simp))) (ih fun x hx => h x (by simp [hx]))

mutual
theorem encodeNode_length (w start : Nat) (n : Node) :
    (encodeNode w start n).length = nodeSize w n := by
  obtain ⟨name, attrs, children⟩ := n
  have := encodeNodes_length w (start + (3 * w + 1 + name.length + (encodeAttrs attrs).length))
    children
  unfold encodeNode
  simp only [List.length_append, List.length_cons, leBytes_length, this]
  unfold nodeSize
  split <;> simp [nullRecord] <;> omega
theorem encodeNodes_length (w start : Nat) (l : List Node) :
    (encodeNodes w start l).length = nodesSize w l := by
  match l with
  | [] => rfl
  | n :: ns =>
    unfold encodeNodes nodesSize
    rw [List.length_append, encodeNode_length, encodeNodes_length]
end

/-- An offset that a header field can hold. -/
def OffsetOK (w v : Nat) : Prop := 2 * v < 256 ^ w ∨ (w = 4 ∧ v < 256 ^ w)

theorem OffsetOK.mono {w a b : Nat} (h : OffsetOK w b) (hab : a ≤ b) : OffsetOK w a := by
  rcases h with h | ⟨h, h'⟩
  · left; omega
  · right; exact ⟨h, by omega⟩

mutual
theorem encodeNode_enc (z : Zlib) (seek : Bool) (w start : Nat) (n : Node) (h : ValidNode n)
    (hs : OffsetOK w (start + nodeSize w n)) :
    EncNode z seek w start n (encodeNode w start n) := by
  obtain ⟨name, attrs, children⟩ := n
  unfold ValidNode at h
  obtain ⟨h1, h2, h3, h4⟩ := h
  have hsz : nodeSize w (.mk name attrs children) =
    3 * w + 1 + name.length + (encodeAttrs attrs).length + nodesSize w children +
      if children.isEmpty then 0 else 3 * w + 1 := by
    conv_lhs => unfold nodeSize
  have hk := encodeNodes_enc z seek w
    (start + (3 * w + 1 + name.length + (encodeAttrs attrs).length)) children h4
    (hs.mono (by omega))
  refine .mk start _ name attrs children (encodeAttrs attrs) _
    (if children.isEmpty then [] else nullRecord w) _ h1 h2 (encodeAttrs_enc z seek attrs h3) hk ?_
    ?_ hs ?_
  · split <;> simp
  · rw [hsz, encodeNodes_length]
    split <;> simp [nullRecord]
  · conv_lhs => unfold encodeNode
theorem encodeNodes_enc (z : Zlib) (seek : Bool) (w start : Nat) (l : List Node)
    (h : ValidNodes l) (hs : OffsetOK w (start + nodesSize w l)) :
    EncNodes z seek w start l (encodeNodes w start l) := by
  match l with
  | [] => exact .nil _
  | n :: ns =>
    unfold ValidNodes at h
    have hsz : nodesSize w (n :: ns) = nodeSize w n + nodesSize w ns := by
      conv_lhs => unfold nodesSize
    refine .cons start n ns _ _ _ (encodeNode_enc z seek w start n h.1 (hs.mono (by omega)))
      (encodeNodes_enc z seek w _ ns h.2 ?_) ?_
    · rw [encodeNode_length]; exact hs.mono (by omega)
    · conv_lhs => unfold encodeNodes
      rw [encodeNode_length]
end

theorem encodeFile_enc (z : Zlib) (seek : Bool) (version : Nat) (nodes : List Node)
    (hv : version < 2 ^ 32) (h : ValidNodes nodes)
    (hs : OffsetOK (fieldWidth version) (27 + nodesSize (fieldWidth version) nodes)) :
    EncFile z seek version nodes (encodeFile version nodes) := by
  have := EncTail.null (w := fieldWidth version) (total := (encodeFile version nodes).length) .nil
  rw [List.append_nil] at this
  exact .mk nodes [26, 0] _ _ _ _ hv rfl rfl (encodeNodes_enc z seek _ 27 nodes h hs) this rfl

end Verif.Fbx
