import Verif.Conv.FbxSavedProps
import Verif.Conv.FbxLinkFindings

/-!
C181: a document that meets the hypotheses.
-/

namespace Verif.Conv

open Verif.Geom
open Verif.Mqo (Str Object Face MorphTargetList)
open Verif.Mmd (Bytes toSigned)
open Verif.Fbx hiding Conv
open Verif.Fbx.FDoc

/-! ## A test for `NodesSafe` -/

/-- A test that implies `ValueSafe toyEnv`. -/
def okValue : Value → Bool
  | .num .f32 b => decide ((numberValue toyEnv (toyEnv.showF32 b)).2 = true)
  | .num .f64 b => decide ((numberValue toyEnv (toyEnv.showF64 b)).2 = true)
  | .num .u8 b => decide (b < 256)
  | .num ty b => decide (b < 256 ^ ty.width)
  | .int v => decide (-9223372036854775808 ≤ v ∧ v < 9223372036854775808)
  | .str b => decide ((34 : UInt8) ∉ textName b)
  | .arr .f32 l => decide (l.length < 2147483648)
  | .arr .i32 l => decide (l.length < 2147483648)
  | _ => false

theorem okValue_safe (v : Value) (h : okValue v = true) : ValueSafe toyEnv v := by
  cases v with
  | num ty b => cases ty <;> first
    | exact ⟨numTok_decInt _, by simpa [okValue] using h⟩
    | simpa [okValue, ValueSafe] using h
  | int v => simpa [okValue, ValueSafe] using h
  | str b => exact ⟨rfl, of_decide_eq_true h⟩
  | raw b => simp [okValue] at h
  | arr ty l => cases ty <;> first | exact ⟨of_decide_eq_true h, fun b _ => numTok_decInt _⟩ | simp [okValue] at h
  | nilArr ty => trivial
  | none' => simp [okValue] at h

def okName (a : Bytes) : Bool := decide (a ≠ []) && (a.head?.all startsIdent && a.all inIdent)

mutual

/-- A test that implies `NodeSafe toyEnv`. -/
def okNode : Node → Bool
  | .mk name attrs children => okName name && (attrs.all okValue && okNodes children)

def okNodes : List Node → Bool
  | [] => true
  | n :: ns => okNode n && okNodes ns

end

mutual

theorem okNode_safe : ∀ n, okNode n = true → NodeSafe toyEnv n
  | .mk name attrs children, h => by
    simp only [okNode, okName, Bool.and_eq_true, decide_eq_true_eq] at h
    obtain ⟨⟨h1, h2⟩, h3, h4⟩ := h
    refine .mk _ _ _ (toy_ident name ⟨h1, by simp [h2.1, h2.2]⟩) ?_ (okNodes_safe children h4)
    intro v hv
    exact okValue_safe v (List.all_eq_true.1 h3 v hv)

theorem okNodes_safe : ∀ ns, okNodes ns = true → NodesSafe toyEnv ns
  | [], _ => .nil
  | n :: ns, h => by
    simp only [okNodes, Bool.and_eq_true] at h
    exact .cons _ _ (okNode_safe n h.1) (okNodes_safe ns h.2)

end

/-! ## Tests for the other conditions -/

def okID (n : Node) : Bool :=
  match n.attrs with
  | .num .i64 b :: _ => decide (b < 256 ^ 8)
  | _ => false

theorem okID_has (n : Node) (h : okID n = true) : HasID n := by
  unfold okID at h
  split at h
  · rename_i b rest e
    exact ⟨.i64, b, rest, e, by simp [IntTy], of_decide_eq_true h⟩
  · simp at h

def okLink (n : Node) : Bool :=
  match n.attrs with
  | .str kind :: .num .i64 a :: .num .i64 b :: _ => decide (splitName kind = none ∧ a < 256 ^ 8 ∧ b < 256 ^ 8)
  | _ => false

theorem okLink_plain (n : Node) (h : okLink n = true) : PlainLink n := by
  unfold okLink at h
  split at h
  · rename_i kind a b rest e
    obtain ⟨h1, h2, h3⟩ := of_decide_eq_true h
    exact ⟨kind, .i64, a, .i64, b, rest, e, h1, by simp [IntTy], h2, by simp [IntTy], h3⟩
  · simp at h

def okNumber : Value → Bool
  | .num .i32 b => decide (b < 256 ^ 4)
  | .num .f32 b => decide (b < 4294967296)
  | .str _ => true
  | _ => false

theorem toy_float (b : Nat) (h : b < 4294967296) : FloatText toyEnv toyConv (toyEnv.showF32 b) b := by
  refine .inr ⟨toSigned 4 b, ?_, ?_, rfl⟩ <;> unfold toSigned <;> norm_num <;> split <;> omega

theorem okNumber_plain (v : Value) (h : okNumber v = true) : PlainValue toyEnv toyConv v := by
  cases v with
  | num ty b =>
    cases ty <;> first
      | exact .f32 b (of_decide_eq_true h) (toy_float b (of_decide_eq_true h))
      | exact .int .i32 b (by simp [IntTy]) (of_decide_eq_true h)
      | simp [okNumber] at h
  | str b => exact .str b
  | _ => simp [okNumber] at h

def okProp (n : Node) : Bool :=
  match n.attrs with
  | .str name :: .str _ :: .str _ :: .str _ :: vals => decide (splitName name = none) && vals.all okNumber
  | _ => false

theorem okProp_plain (n : Node) (h : okProp n = true) : PlainProp toyEnv toyConv n := by
  unfold okProp at h
  split at h
  · rename_i name t l f vals e
    simp only [Bool.and_eq_true, decide_eq_true_eq] at h
    exact ⟨name, t, l, f, vals, e, h.1, fun v hv => okNumber_plain v (List.all_eq_true.1 h.2 v hv)⟩
  · simp at h

/-- A property whose first value is an integer. -/
def okAxis (n : Node) : Bool :=
  match n.attrs with
  | .str _ :: _ :: _ :: _ :: .num .i32 b :: _ => decide (b < 256 ^ 4)
  | _ => false

def okModel (n : Node) : Bool :=
  match n.attrs with
  | _ :: .str name :: .str _ :: _ =>
    (match splitName name with
      | some (x, _) => decide (name = x ++ 0 :: 1 :: b! "Model" ∧ 0 ∉ x ∧
          ¬ "Model::".toList <+: modelFileEnv.text x ++ "::Model".toList ∧ ¬ "::Model".toList <:+ modelFileEnv.text x)
      | none => true)
  | _ => false

theorem okModel_name (n : Node) (h : okModel n = true) :
    ∃ v name kind rest, n.attrs = v :: .str name :: .str kind :: rest ∧ PlainName modelFileEnv name := by
  unfold okModel at h
  split at h
  · rename_i v name kind rest e
    refine ⟨v, name, kind, rest, e, ?_⟩
    split at h
    · rename_i x t _
      exact .inl ⟨x, of_decide_eq_true h⟩
    · rename_i hs
      exact .inr hs
  · simp at h

def okFloats (n : Node) : Bool :=
  match n.attrs with
  | [.arr .f32 l] => decide (l ≠ []) && l.all fun b => decide (b < 4294967296)
  | _ => false

theorem okFloats_plain (n : Node) (h : okFloats n = true) : PlainFloats toyEnv toyConv n := by
  unfold okFloats at h
  split at h
  · rename_i l e
    simp only [Bool.and_eq_true, decide_eq_true_eq, List.all_eq_true] at h
    exact ⟨l, h.1, .inl ⟨e, fun b hb => ⟨h.2 b hb, toy_float b (h.2 b hb)⟩⟩⟩
  · simp at h

def okInts (n : Node) : Bool :=
  match n.attrs with
  | [.arr .i32 l] => decide (l ≠ []) && l.all fun b => decide (b < 4294967296)
  | _ => false

theorem okInts_plain (n : Node) (h : okInts n = true) : PlainInts n := by
  unfold okInts at h
  split at h
  · rename_i l e
    simp only [Bool.and_eq_true, decide_eq_true_eq, List.all_eq_true] at h
    exact ⟨l, e, h.1, fun b hb => h.2 b hb⟩
  · simp at h

def okProps (n : Node) : Bool := (getChildren (findChild (some n) b! "Properties70")).all okProp

theorem okProps_plain (n : Node) (h : okProps n = true) : PlainProps toyEnv toyConv n :=
  fun p hp => okProp_plain p (List.all_eq_true.1 h p hp)

theorem modelFile_kept : KeptFile toyEnv modelFileEnv modelFile where
  safe := okNodes_safe _ (by decide +kernel)
  version := by
    intro n hn
    have : findChild (findChild (some modelFile) b! "FBXHeaderExtension") b! "FBXVersion" = none := rfl
    rw [this] at hn; simp at hn
  ids := fun n hn => okID_has n (by
    have : ∀ n ∈ fileObjects modelFile, okID n = true := List.all_eq_true.1 (by decide +kernel)
    exact this n hn)
  links := fun n hn => okLink_plain n (by
    have : ∀ n ∈ fileConnections modelFile, okLink n = true := List.all_eq_true.1 (by decide +kernel)
    exact this n hn)
  models := by
    intro n hn hm
    have : ∀ n ∈ fileObjects modelFile, (n.name != b! "Model" || (okModel n && okProps n)) = true :=
      List.all_eq_true.1 (by decide +kernel)
    have := this n hn
    rw [hm] at this
    simp only [bne_self_eq_false, Bool.false_or, Bool.and_eq_true] at this
    exact ⟨okModel_name n this.1, okProps_plain n this.2⟩
  meshes := by
    intro n hn hm
    have : ∀ n ∈ fileObjects modelFile, (n.name != b! "Geometry" ||
        ((findChild (some n) b! "Vertices").all okFloats && (findChild (some n) b! "PolygonVertexIndex").all okInts)) = true :=
      List.all_eq_true.1 (by decide +kernel)
    have := this n hn
    rw [hm] at this
    simp only [bne_self_eq_false, Bool.false_or, Bool.and_eq_true] at this
    refine ⟨fun c hc => okFloats_plain c ?_, fun c hc => okInts_plain c ?_⟩
    · have h := this.1; rw [hc] at h; simpa using h
    · have h := this.2; rw [hc] at h; simpa using h
  types := by
    intro n hn
    have : getChildren (findChild (some modelFile) b! "Definitions") = [] := rfl
    rw [this] at hn; simp at hn
  templates := by
    intro typ o ho
    have : templateOf modelFile typ = none := rfl
    rw [this] at ho; simp at ho
  settings := by
    intro n hn
    refine okProps_plain n ?_
    have : (findChild (some modelFile) b! "GlobalSettings").all okProps = true := by decide +kernel
    rw [hn] at this; simpa using this
  axes := by
    intro p hp name t l f vals e _
    have : ∀ p ∈ getChildren (findChild (findChild (some modelFile) b! "GlobalSettings") b! "Properties70"),
        okAxis p = true := List.all_eq_true.1 (by decide +kernel)
    rcases hp with hp | ⟨o, ho, -⟩
    · have h := this p hp
      unfold okAxis at h
      split at h
      · rename_i b rest e'
        rw [e] at e'
        simp only [List.cons.injEq] at e'
        obtain ⟨-, -, -, -, rfl⟩ := e'
        exact ⟨.i32, b, rest, rfl, by simp [IntTy], of_decide_eq_true h⟩
      · simp at h
    · have : templateOf modelFile b! "GlobalSettings" = none := rfl
      rw [this] at ho; simp at ho
  text := by
    intro b
    constructor <;> simp only [modelFileEnv, List.map_append] <;> congr 1

local instance ratOpsFbxSaved : FloatOps ℚ := ⟨id, fun a b => decide (a < b), fun a b => decide (a ≤ b)⟩

/-- The hypotheses of `saved_document_converted` hold of the sample. -/
example (z : Zlib) : ∃ root' sc coord, coordMatrix (fileAxes modelFileEnv modelFile) = some coord ∧
    parseFile toyEnv z true (writeText toyEnv modelFile.children) = some (some root') ∧
    modelFileEnv.sceneOf (build root') = some sc := by
  have h2 : (coordMatrix (fileAxes modelFileEnv modelFile)).isSome = true := by decide +kernel
  obtain ⟨coord, hc⟩ := Option.isSome_iff_exists.1 h2
  obtain ⟨root', sc, k1, k2, -⟩ := saved_document_converted (119 / 2) modelFileEnv toyEnv toy_laws z true modelFile
    modelFile_kept (by decide +kernel) (by unfold DistinctIDs; decide +kernel) (by unfold FileTree; decide +kernel)
    coord hc
  exact ⟨root', sc, coord, hc, k1, k2⟩

end Verif.Conv
