import Verif.Fbx.TextRound
import Verif.Fbx.BinaryTotal
import Verif.Fbx.GeometryProps

/-!
C105 to C111: FBX text files. The reader returns on every input; what `Write` writes is read back, and what is
lost or changed on the way.
-/

namespace Verif.Fbx

open Verif.Mmd (Bytes toSigned V3)

/-! ## C105: the reader returns -/

/-- The text reader comes to an end on every input, with a tree or an error. -/
theorem parseText_total (env : TextEnv) (buf rest : Bytes) : ∃ r, parseText env buf rest = some r := by
  obtain ⟨r, h, _⟩ := (lists_total env (buf.length + rest.length + 2)).1 ⟨buf, rest, none⟩ (size_lt ⟨buf, rest, none⟩)
  simp only [parseText, h]
  split <;> exact ⟨_, rfl⟩

/-- `Parse` returns on every file, binary or text, whatever the reader and the decompressor do. -/
theorem parseFile_total (env : TextEnv) (z : Zlib) (seek : Bool) (data : Bytes) :
    ∃ r, parseFile env z seek data = some r := by
  obtain ⟨r, h⟩ := parse_total z seek data
  simp only [parseFile, h]
  cases r with
  | ok root => exact ⟨_, rfl⟩
  | error => exact ⟨_, rfl⟩
  | text => exact parseText_total env _ _

/-! ## C106: what is written is read back -/

theorem parse_text (z : Zlib) (seek : Bool) (data : Bytes) (h : 21 ≤ data.length) (h0 : data.head? = some 59) :
    parse z seek data = some .text := by
  obtain ⟨t, rfl⟩ : ∃ t, data = 59 :: t := by
    cases data with
    | nil => simp at h0
    | cons a t => simp only [List.head?_cons, Option.some.injEq] at h0; exact ⟨t, by rw [h0]⟩
  have hr : BR.readString ⟨59 :: t, seek, 0, 0, 0, none⟩ 21 =
      (59 :: t.take 20, ⟨59 :: t, seek, 21, 21, 0, none⟩) := by
    have h' : 0 + 21 ≤ (59 :: t).length := by omega
    simp only [BR.readString, BR.read, h', if_true]
    rfl
  have hm : (59 :: t.take 20) ≠ magic := by
    intro h; injection h with h _; revert h; decide
  simp only [parse, hr]
  rw [if_pos hm]
  rfl

/-- The nodes a text holds, when nothing but blanks follows. -/
theorem nodes_end (env : TextEnv) (w : Bytes) (ns : List Node) (h : NodesRun env w [] ns) (fuel : Nat)
    (hf : w.length + 2 ≤ fuel) : ∃ s, nodeList env fuel ⟨[], w, none⟩ = some (ns, s) ∧ s.err = some .eof := by
  obtain ⟨f1, s1, hf1, a1, e1⟩ := h ⟨[], w, none⟩ fuel (by rw [List.append_nil]; exact at_nil w) (by simpa using hf)
  have g := getToken_end [] a1 blank_nil
  obtain ⟨f2, rfl⟩ : ∃ f2, f1 = f2 + 2 := ⟨f1 - 2, by omega⟩
  refine ⟨⟨[], [], some .eof⟩, ?_, rfl⟩
  have e2 : nodeList env (f2 + 2) s1 = some ([], ⟨[], [], some .eof⟩) := by
    simp [nodeList, a1.err, g]
  rw [e1, e2]
  simp [preNodes]

/-- A file that begins with a comment line of at least 21 bytes holds the nodes of the rest. -/
theorem parseFile_comment (env : TextEnv) (z : Zlib) (seek : Bool) (a t : Bytes) (ns : List Node) (hl : 20 ≤ a.length)
    (hlf : ∀ b ∈ a, b ≠ 10) (h : NodesRun env t [] ns) :
    parseFile env z seek (59 :: (a ++ 10 :: t)) = some (some (.mk b! "_FBX_ROOT" [] ns)) := by
  have hp := parse_text z seek (59 :: (a ++ 10 :: t)) (by simp only [List.length_cons, List.length_append]; omega) rfl
  obtain ⟨fuel, hf, e⟩ := parseText_comment env a t hl hlf
  obtain ⟨s, e2, hs⟩ := nodes_end env t ns h fuel hf
  simp only [parseFile, hp, parseText]
  rw [e, e2]
  simp [hs]

theorem header_lines : textHeader = 59 :: (b! " FBX 7.5.0 project file" ++ 10 ::
    ((59 :: (b! " Generator: https://github.com/binzume/modelconv" ++ [10])) ++
      ((59 :: (b! " -----------------------------------------------" ++ [10])) ++ [10]))) := by rfl

/-- Any document whose nodes are written in a form the reader understands (`ValueSafe`, `NodeSafe`) is read
back from the saved file: the same tree of names and children, with the attributes that `loaded` describes. The
node `FileId` is left out. -/
theorem write_parse (env : TextEnv) (z : Zlib) (seek : Bool) (nodes : List Node)
    (h : NodesSafe env (nodes.filter fun n => n.name ≠ b! "FileId")) :
    parseFile env z seek (writeText env nodes) =
      some (some (.mk b! "_FBX_ROOT" [] (loadedNodes env (nodes.filter fun n => n.name ≠ b! "FileId")))) := by
  have h1 := run_dumps env _ h 0 []
  have h2 := NodesRun.trans (run_newline env (dumps env 0 (nodes.filter fun n => n.name ≠ b! "FileId") ++ [])) h1
  have h3 := NodesRun.trans (run_comment env b! " -----------------------------------------------" _ (by decide)) h2
  have h4 := NodesRun.trans (run_comment env b! " Generator: https://github.com/binzume/modelconv" _ (by decide)) h3
  have h5 := parseFile_comment env z seek b! " FBX 7.5.0 project file" _ _ (by decide) (by decide) h4
  rw [writeText, header_lines]
  simp only [List.cons_append, List.nil_append] at h5 ⊢
  exact h5

/-- Numbers without fraction as a stand-in for `strconv` and `fmt` in the examples: a bit pattern stands for
the integer it holds. -/
def toyEnv : TextEnv where
  parseF64 t := (int64Bits ((parseInt 64 t).getD 0), (parseInt 64 t).isNone)
  toI32 b := b % 4294967296
  showF32 b := decInt (toSigned 4 b)
  showF64 b := decInt (toSigned 8 b)
  quote b := 34 :: (b ++ [34])

def toyConv : Conv where
  ofF64 b := b % 4294967296
  ofInt := int32Bits

/-- A geometry with a name, vertices, indices, an empty array and a child without attributes. -/
def toyNode : Node :=
  .mk b! "Geometry" [.num .i64 77, .str (b! "cube" ++ [0, 1] ++ b! "Geometry"), .str b! "Mesh"]
    [.leaf b! "Vertices" [.arr .f32 [1, 2, 4294967295]], .leaf b! "PolygonVertexIndex" [.arr .i32 [0, 4294967295]],
     .leaf b! "Edges" [.nilArr .i32], .leaf b! "Layer" [.int (-5)], .leaf b! "Properties70" []]

theorem toy_ident (a : Bytes) (h : a ≠ [] ∧ (a.head?.all startsIdent && a.all inIdent) = true) : IdentTok a := by
  obtain ⟨h1, h2⟩ := h
  simp only [Bool.and_eq_true, List.all_eq_true] at h2
  exact ⟨h1, fun c hc => by simpa [hc] using h2.1, h2.2⟩

theorem toyNode_safe : NodesSafe toyEnv [toyNode] := by
  refine .cons _ _ (.mk _ _ _ (toy_ident _ (by decide)) ?_ ?_) .nil
  · intro v hv
    simp only [List.mem_cons, List.not_mem_nil, or_false] at hv
    rcases hv with rfl | rfl | rfl
    · show 77 < 256 ^ 8; decide
    · exact ⟨rfl, by decide⟩
    · exact ⟨rfl, by decide⟩
  · refine .cons _ _ (.mk _ _ _ (toy_ident _ (by decide)) ?_ .nil) (.cons _ _ (.mk _ _ _ (toy_ident _ (by decide)) ?_ .nil)
      (.cons _ _ (.mk _ _ _ (toy_ident _ (by decide)) ?_ .nil) (.cons _ _ (.mk _ _ _ (toy_ident _ (by decide)) ?_ .nil)
        (.cons _ _ (.mk _ _ _ (toy_ident _ (by decide)) ?_ .nil) .nil))))
    · intro v hv
      rw [List.mem_singleton.1 hv]
      exact ⟨by decide, fun b _ => numTok_decInt _⟩
    · intro v hv
      rw [List.mem_singleton.1 hv]
      exact ⟨by decide, fun b _ => numTok_decInt _⟩
    · intro v hv
      rw [List.mem_singleton.1 hv]; trivial
    · intro v hv
      rw [List.mem_singleton.1 hv]; exact ⟨by decide, by decide⟩
    · intro v hv; simp at hv

/-- `write_parse` applies to a document with a geometry; the id of the file is left out. -/
example (z : Zlib) (seek : Bool) :
    ∃ r, parseFile toyEnv z seek (writeText toyEnv [.leaf b! "FileId" [.raw [1, 2]], toyNode]) = some (some r) ∧
      (r.children.map Node.name) = [b! "Geometry"] :=
  ⟨_, write_parse toyEnv z seek [.leaf b! "FileId" [.raw [1, 2]], toyNode] toyNode_safe, rfl⟩

theorem loadedNode_name (env : TextEnv) (n : Node) : (loadedNode env n).name = n.name := by
  cases n; rfl

theorem loadedNode_attrs (env : TextEnv) (n : Node) : (loadedNode env n).attrs = n.attrs.flatMap (loaded env) := by
  cases n; rfl

theorem loadedNode_children (env : TextEnv) (n : Node) : (loadedNode env n).children = loadedNodes env n.children := by
  cases n; rfl

theorem loadedNodes_map (env : TextEnv) (ns : List Node) : loadedNodes env ns = ns.map (loadedNode env) := by
  induction ns with
  | nil => rfl
  | cons n ns ih => simp [loadedNodes, ih]

/-- A child is found after saving and loading exactly if it was there before. -/
theorem findChild_loaded (env : TextEnv) (n : Option Node) (name : Bytes) :
    findChild (n.map (loadedNode env)) name = (findChild n name).map (loadedNode env) := by
  cases n with
  | none => rfl
  | some n =>
    simp only [findChild, Option.map_some, loadedNode_children, loadedNodes_map, List.find?_map]
    congr 1
    exact congrFun (congrArg List.find? (funext fun c => by simp [loadedNode_name])) _

/-- The sections of the document (`Objects`, `Connections`, …) hold the same nodes in the same order. -/
theorem sections_saved (env : TextEnv) (z : Zlib) (seek : Bool) (nodes : List Node)
    (h : NodesSafe env (nodes.filter fun n => n.name ≠ b! "FileId")) :
    ∃ root, parseFile env z seek (writeText env nodes) = some (some root) ∧
      ∀ name, name ≠ b! "FileId" →
        findChild (some root) name = (findChild (some (.mk b! "_FBX_ROOT" [] nodes)) name).map (loadedNode env) ∧
        getChildren (findChild (some root) name) =
          (getChildren (findChild (some (.mk b! "_FBX_ROOT" [] nodes)) name)).map (loadedNode env) := by
  refine ⟨_, write_parse env z seek nodes h, fun name hname => ?_⟩
  have h1 : findChild (some (.mk b! "_FBX_ROOT" [] (loadedNodes env (nodes.filter fun n => n.name ≠ b! "FileId")))) name =
      (findChild (some (.mk b! "_FBX_ROOT" [] nodes)) name).map (loadedNode env) := by
    have h2 := findChild_loaded env (some (.mk b! "_FBX_ROOT" [] (nodes.filter fun n => n.name ≠ b! "FileId"))) name
    have h3 : findChild (some (.mk b! "_FBX_ROOT" [] (nodes.filter fun n => n.name ≠ b! "FileId"))) name =
        findChild (some (.mk b! "_FBX_ROOT" [] nodes)) name := by
      simp only [findChild, Node.children_mk, List.find?_filter]
      refine congrFun (congrArg List.find? (funext fun c => ?_)) _
      by_cases hc : c.name = name
      · simp [hc, hname]
      · simp [hc]
    rw [h3] at h2
    exact h2
  refine ⟨h1, ?_⟩
  rw [h1]
  cases findChild (some (.mk b! "_FBX_ROOT" [] nodes)) name with
  | none => rfl
  | some c => simp [getChildren, loadedNode_children, loadedNodes_map]

/-! ## C107: numbers, strings and arrays read the same -/

theorem toSigned_int64Bits (v : Int) (h1 : -9223372036854775808 ≤ v) (h2 : v < 9223372036854775808) :
    toSigned 8 (int64Bits v) = v := by
  unfold toSigned int64Bits
  norm_num
  split <;> omega

theorem toSigned4_int32Bits (v : Int) (h1 : -2147483648 ≤ v) (h2 : v < 2147483648) : toSigned 4 (int32Bits v) = v := by
  unfold toSigned int32Bits
  norm_num
  split <;> omega

theorem int32Bits_toSigned4 (b : Nat) (h : b < 4294967296) : int32Bits (toSigned 4 b) = b := by
  unfold toSigned int32Bits
  norm_num
  split <;> omega

/-- The integer types that `ToInt64` knows. -/
def IntTy (ty : NumTy) : Prop := ty = .i8 ∨ ty = .i16 ∨ ty = .i32 ∨ ty = .i64

/-- Integers keep their value: ids, connections, times. -/
theorem int_saved (env : TextEnv) (ty : NumTy) (b : Nat) (d : Int) (ht : IntTy ty) (hb : b < 256 ^ ty.width) :
    ∃ v, loaded env (.num ty b) = [v] ∧ toInt64 (some v) d = toInt64 (some (.num ty b)) d := by
  have key : ∀ n, (n = 1 ∨ n = 2 ∨ n = 4 ∨ n = 8) → b < 256 ^ n →
      toInt64 (some (.num .i64 (int64Bits (toSigned n b)))) d = toSigned n b := by
    intro n hn hb
    obtain ⟨h1, h2⟩ := toSigned_range8 n b hn hb
    exact toSigned_int64Bits _ h1 h2
  rcases ht with rfl | rfl | rfl | rfl
  · exact ⟨_, rfl, key 1 (by simp) hb⟩
  · exact ⟨_, rfl, key 2 (by simp) hb⟩
  · exact ⟨_, rfl, key 4 (by simp) hb⟩
  · exact ⟨_, rfl, key 8 (by simp) hb⟩

/-- A Go `int`, as in a new object's id, becomes readable only by saving and loading. -/
theorem goInt_saved (env : TextEnv) (v d : Int) (h : -9223372036854775808 ≤ v ∧ v < 9223372036854775808) :
    toInt64 (some (.int v)) d = d ∧ ∃ w, loaded env (.int v) = [w] ∧ toInt64 (some w) d = v :=
  ⟨rfl, _, rfl, toSigned_int64Bits v h.1 h.2⟩

/-- Strings without the separator `\0\1` stay as they are. -/
theorem string_saved (env : TextEnv) (b : Bytes) (h : splitName b = none) : loaded env (.str b) = [.str b] := by
  simp [loaded, textName, h]

/-- A string with `\0` only has no separator. -/
example : splitName b! "Lcl Translation" = none := by decide

/-- A connection between two objects is the same connection after saving and loading. -/
theorem connection_saved (env : TextEnv) (kind : Bytes) (a b : Nat) (rest : List Value) (hk : splitName kind = none)
    (ha : a < 256 ^ 8) (hb : b < 256 ^ 8) :
    let c : Node := .mk b! "C" (.str kind :: .num .i64 a :: .num .i64 b :: rest) []
    toStr (attr (some (loadedNode env c)) 0) = kind ∧
      toInt64 (attr (some (loadedNode env c)) 1) 0 = toInt64 (attr (some c) 1) 0 ∧
      toInt64 (attr (some (loadedNode env c)) 2) 0 = toInt64 (attr (some c) 2) 0 := by
  obtain ⟨v, hv1, hv2⟩ := int_saved env .i64 a 0 (by simp [IntTy]) ha
  obtain ⟨w, hw1, hw2⟩ := int_saved env .i64 b 0 (by simp [IntTy]) hb
  have hv : v ≠ .none' := by
    have h0 : loaded env (.num .i64 a) = [.num .i64 (int64Bits (toSigned 8 a))] := rfl
    rw [h0] at hv1
    injection hv1 with h1 _
    rw [← h1]; simp
  have hw : w ≠ .none' := by
    have h0 : loaded env (.num .i64 b) = [.num .i64 (int64Bits (toSigned 8 b))] := rfl
    rw [h0] at hw1
    injection hw1 with h1 _
    rw [← h1]; simp
  have hl : (loadedNode env (.mk b! "C" (.str kind :: .num .i64 a :: .num .i64 b :: rest) [])).attrs =
      .str kind :: v :: w :: rest.flatMap (loaded env) := by
    rw [loadedNode_attrs]
    simp only [Node.attrs_mk, List.flatMap_cons, string_saved env kind hk, hv1, hw1, List.cons_append, List.nil_append]
  refine ⟨?_, ?_, ?_⟩
  · simp only [attr, hl]; rfl
  · have : attr (some (loadedNode env (.mk b! "C" (.str kind :: .num .i64 a :: .num .i64 b :: rest) []))) 1 = some v := by
      simp only [attr, hl]
      cases v <;> first | rfl | exact absurd rfl hv
    rw [this]; exact hv2
  · have : attr (some (loadedNode env (.mk b! "C" (.str kind :: .num .i64 a :: .num .i64 b :: rest) []))) 2 = some w := by
      simp only [attr, hl]
      cases w <;> first | rfl | exact absurd rfl hw
    rw [this]; exact hw2

/-- What the following theorems need of `strconv`, `fmt` and Go's conversions. -/
structure TextLaws (env : TextEnv) (cv : Conv) : Prop where
  /-- `int32(v)` of a parsed 32 bit integer is this integer. -/
  int32 : ∀ v : Int, -2147483648 ≤ v → v < 2147483648 → env.toI32 (env.parseF64 (decInt v)).1 = int32Bits v
  /-- A 32 bit integer goes through float64 without loss. -/
  viaF64 : ∀ v : Int, -2147483648 ≤ v → v < 2147483648 → cv.ofF64 (env.parseF64 (decInt v)).1 = cv.ofInt v
  /-- A float32 that is printed as an integer is this integer. -/
  show32 : ∀ (b : Nat) (v : Int), b < 4294967296 → env.showF32 b = decInt v → cv.ofInt v = b
  /-- The same of a float64, as float32. -/
  show64 : ∀ (b : Nat) (v : Int), b < 18446744073709551616 → env.showF64 b = decInt v → cv.ofInt v = cv.ofF64 b

theorem decInt_inj (v w : Int) (hv : -9223372036854775808 ≤ v ∧ v < 9223372036854775808) (h : decInt v = decInt w) :
    v = w := by
  have h1 := parseInt_decInt 64 v (by norm_num; omega) (by norm_num; omega)
  rw [h] at h1
  unfold decInt at h1
  simp only [parseInt] at h1
  split at h1
  · rename_i hw
    simp only [List.head?_cons, if_true, List.tail_cons, digitsVal_decNat] at h1
    split at h1
    · simp only [Option.some.injEq] at h1; omega
    · simp at h1
  · rename_i hw
    simp only [decNat_head, if_false, digitsVal_decNat] at h1
    split at h1
    · simp only [Option.some.injEq] at h1; omega
    · simp at h1

/-- The laws hold of the stand-in used in the examples. -/
theorem toy_laws : TextLaws toyEnv toyConv := by
  have hp : ∀ v : Int, -2147483648 ≤ v → v < 2147483648 → (toyEnv.parseF64 (decInt v)).1 = int64Bits v := by
    intro v h1 h2
    show int64Bits ((parseInt 64 (decInt v)).getD 0) = int64Bits v
    rw [parseInt_decInt 64 v (by norm_num; omega) (by norm_num; omega)]; rfl
  refine ⟨?_, ?_, ?_, ?_⟩
  · intro v h1 h2
    rw [hp v h1 h2]
    show int64Bits v % 4294967296 = int32Bits v
    unfold int64Bits int32Bits; omega
  · intro v h1 h2
    rw [hp v h1 h2]
    show int64Bits v % 4294967296 = int32Bits v
    unfold int64Bits int32Bits; omega
  · intro b v hb h
    have h1 := toSigned_range8 4 b (by simp) (by norm_num; omega)
    have h2 := decInt_inj (toSigned 4 b) v h1 h
    show int32Bits v = b
    rw [← h2, int32Bits_toSigned4 b hb]
  · intro b v hb h
    have h1 := toSigned_range8 8 b (by simp) (by norm_num; omega)
    have h2 := decInt_inj (toSigned 8 b) v h1 h
    show int32Bits v = b % 4294967296
    rw [← h2]
    unfold int32Bits toSigned
    norm_num
    split <;> omega

theorem any_dot_decInt (l : List Int) : (l.map decInt).any (·.contains 46) = false := by
  rw [List.any_eq_false]
  intro t ht
  obtain ⟨v, _, rfl⟩ := List.mem_map.1 ht
  simpa using decInt_dot v

theorem numbersValue_ints (env : TextEnv) (cv : Conv) (laws : TextLaws env cv) (l : List Int) (hne : l ≠ [])
    (h : ∀ v ∈ l, -2147483648 ≤ v ∧ v < 2147483648) :
    numbersValue env (l.map decInt) = .arr .i32 (l.map int32Bits) := by
  unfold numbersValue
  rw [any_dot_decInt]
  simp only [Bool.false_eq_true, if_false, List.map_map]
  have : (l.map ((fun t => env.toI32 (env.parseF64 t).1) ∘ decInt)) = l.map int32Bits := by
    apply List.map_congr_left
    intro v hv
    exact laws.int32 v (h v hv).1 (h v hv).2
  rw [this]
  unfold slice
  rw [if_neg (by simpa using hne)]

/-- An array of 32 bit integers comes back as it was. -/
theorem i32_array_saved (env : TextEnv) (cv : Conv) (laws : TextLaws env cv) (l : List Nat) (hne : l ≠ [])
    (h : ∀ b ∈ l, b < 4294967296) : loaded env (.arr .i32 l) = [.arr .i32 l] := by
  have h1 := numbersValue_ints env cv laws (l.map (toSigned 4)) (by simpa using hne) (by
    intro v hv
    obtain ⟨b, hb, rfl⟩ := List.mem_map.1 hv
    have := h b hb
    unfold toSigned
    norm_num
    split <;> omega)
  simp only [List.map_map] at h1
  have h2 : l.map (int32Bits ∘ toSigned 4) = l := by
    conv_rhs => rw [← List.map_id l]
    apply List.map_congr_left
    intro b hb
    exact int32Bits_toSigned4 b (h b hb)
  simp only [loaded, if_neg hne]
  rw [h2] at h1
  exact congrArg (fun v => [v]) h1

/-- Also 64 bit integers of a 32 bit value are read as before. -/
theorem i64_array_saved (env : TextEnv) (cv : Conv) (laws : TextLaws env cv) (l : List Nat) (hne : l ≠ [])
    (h : ∀ b ∈ l, -2147483648 ≤ toSigned 8 b ∧ toSigned 8 b < 2147483648) :
    ∃ v, loaded env (.arr .i64 l) = [v] ∧ toInt32Array (some v) = toInt32Array (some (.arr .i64 l)) := by
  have h1 := numbersValue_ints env cv laws (l.map (toSigned 8)) (by simpa using hne) (by
    intro v hv
    obtain ⟨b, hb, rfl⟩ := List.mem_map.1 hv
    exact h b hb)
  simp only [List.map_map] at h1
  refine ⟨.arr .i32 (l.map (int32Bits ∘ toSigned 8)), ?_, ?_⟩
  · simp only [loaded, if_neg hne]
    exact congrArg (fun v => [v]) h1
  · simp [toInt32Array, hne]

/-- A float whose text has a decimal point and is read back as `f`, or is a 32 bit integer. -/
def FloatBack (env : TextEnv) (cv : Conv) (t : Bytes) (f : Nat) : Prop :=
  (46 ∈ t ∧ cv.ofF64 (env.parseF64 t).1 = f) ∨ ∃ v : Int, -2147483648 ≤ v ∧ v < 2147483648 ∧ t = decInt v ∧ cv.ofInt v = f

theorem numbersValue_floats (env : TextEnv) (cv : Conv) (laws : TextLaws env cv) (ts : List Bytes) (fs : List Nat)
    (hne : ts ≠ []) (h : List.Forall₂ (FloatBack env cv) ts fs) :
    toFloat32Array cv (some (numbersValue env ts)) = some fs := by
  unfold numbersValue
  by_cases hd : ts.any (·.contains 46) = true
  · simp only [hd, if_true, toFloat32Array]
    rw [if_neg (by simpa using hne), List.map_map]
    congr 1
    clear hd hne
    induction h with
    | nil => rfl
    | cons hb _ ih =>
      simp only [List.map_cons, ih, Function.comp_apply]
      congr 1
      rcases hb with ⟨_, hb⟩ | ⟨v, h1, h2, rfl, h4⟩
      · exact hb
      · rw [laws.viaF64 v h1 h2, h4]
  · have hd' : ts.any (·.contains 46) = false := by simpa using hd
    simp only [hd', Bool.false_eq_true, if_false, slice]
    rw [if_neg (by simpa using hne)]
    simp only [toFloat32Array]
    rw [if_neg (by simpa using hne), List.map_map]
    congr 1
    rw [List.any_eq_false] at hd'
    clear hd hne
    induction h with
    | nil => rfl
    | cons hb _ ih =>
      simp only [List.map_cons, Function.comp_apply]
      rw [ih fun x hx => hd' x (by simp [hx])]
      congr 1
      rcases hb with ⟨hm, _⟩ | ⟨v, h1, h2, rfl, h4⟩
      · exact absurd (by simpa using hm) (hd' _ (by simp))
      · rw [laws.int32 v h1 h2, toSigned4_int32Bits v h1 h2, h4]

/-- An array of float32 values whose texts are plain decimals is read as before, also when no value has a
fraction and the array comes back as integers. -/
theorem f32_array_saved (env : TextEnv) (cv : Conv) (laws : TextLaws env cv) (l : List Nat) (hne : l ≠ [])
    (h : ∀ b ∈ l, b < 4294967296 ∧ ((46 ∈ env.showF32 b ∧ cv.ofF64 (env.parseF64 (env.showF32 b)).1 = b) ∨
      ∃ v : Int, -2147483648 ≤ v ∧ v < 2147483648 ∧ env.showF32 b = decInt v)) :
    ∃ v, loaded env (.arr .f32 l) = [v] ∧ toFloat32Array cv (some v) = toFloat32Array cv (some (.arr .f32 l)) := by
  refine ⟨_, by simp only [loaded, if_neg hne]; rfl, ?_⟩
  refine numbersValue_floats env cv laws _ l (by simpa using hne) ?_
  clear hne
  induction l with
  | nil => exact .nil
  | cons b l ih =>
    refine .cons ?_ (ih fun x hx => h x (by simp [hx]))
    obtain ⟨hb, h1 | ⟨v, h1, h2, h3⟩⟩ := h b (by simp)
    · exact .inl h1
    · exact .inr ⟨v, h1, h2, h3, laws.show32 b v hb h3⟩

/-- The same for float64 values, where the decimal is known to give back the value. -/
theorem f64_array_saved (env : TextEnv) (cv : Conv) (laws : TextLaws env cv) (l : List Nat) (hne : l ≠ [])
    (h : ∀ b ∈ l, b < 18446744073709551616 ∧ ((46 ∈ env.showF64 b ∧ (env.parseF64 (env.showF64 b)).1 = b) ∨
      ∃ v : Int, -2147483648 ≤ v ∧ v < 2147483648 ∧ env.showF64 b = decInt v)) :
    ∃ v, loaded env (.arr .f64 l) = [v] ∧ toFloat32Array cv (some v) = toFloat32Array cv (some (.arr .f64 l)) := by
  refine ⟨_, by simp only [loaded, if_neg hne]; rfl, ?_⟩
  have h0 : toFloat32Array cv (some (.arr .f64 l)) = some (l.map cv.ofF64) := by simp [toFloat32Array, hne]
  rw [h0]
  refine numbersValue_floats env cv laws _ _ (by simpa using hne) ?_
  clear hne h0
  induction l with
  | nil => exact .nil
  | cons b l ih =>
    refine .cons ?_ (ih fun x hx => h x (by simp [hx]))
    obtain ⟨hb, ⟨h1, h1'⟩ | ⟨v, h1, h2, h3⟩⟩ := h b (by simp)
    · exact .inl ⟨h1, congrArg cv.ofF64 h1'⟩
    · exact .inr ⟨v, h1, h2, h3, laws.show64 b v hb h3⟩

example : ∃ v, loaded toyEnv (.arr .f32 [5, 4294967295]) = [v] ∧
    toFloat32Array toyConv (some v) = some [5, 4294967295] :=
  f32_array_saved toyEnv toyConv toy_laws [5, 4294967295] (by decide) (by
    intro b hb
    refine ⟨by revert b; decide, .inr ⟨toSigned 4 b, ?_, ?_, rfl⟩⟩ <;> revert b <;> decide)

theorem getInt32Array_leaf (c : Node) (l : List Nat) (h : c.attrs = [.arr .i32 l]) : getInt32Array (some c) = l := by
  simp [getInt32Array, attr, h, toInt32Array]

theorem getFloat32Array_leaf (cv : Conv) (c : Node) (v : Value) (l : List Nat) (h : c.attrs = [v])
    (hv : toFloat32Array cv (some v) = some l) : getFloat32Array cv (some c) = l := by
  have hn : v ≠ .none' := by rintro rfl; simp [toFloat32Array] at hv
  have ha : attr (some c) 0 = some v := by
    simp only [attr, h]
    cases v <;> first | rfl | exact absurd rfl hn
  simp [getFloat32Array, ha, hv]

/-- A mesh made by `NewGeometry` has its vertices and faces back after saving and loading. -/
theorem geometry_saved (env : TextEnv) (cv : Conv) (laws : TextLaws env cv) (name : Bytes) (verts : List V3)
    (faces : List (List Int)) (hv : verts ≠ []) (hf : faces ≠ []) (hfaces : ∀ f ∈ faces, f ≠ [])
    (hi : ∀ f ∈ faces, ∀ i ∈ f, 0 ≤ i ∧ i < 2147483648)
    (hfl : ∀ b ∈ verts.flatMap vec3Floats,
      (46 ∈ env.showF32 b ∧ cv.ofF64 (env.parseF64 (env.showF32 b)).1 = b) ∨
        ∃ v : Int, -2147483648 ≤ v ∧ v < 2147483648 ∧ env.showF32 b = decInt v) :
    (geometryInit cv (loadedNode env (newGeometry name verts faces))).vertices = verts ∧
      (geometryInit cv (loadedNode env (newGeometry name verts faces))).polygons = faces := by
  have hvne : verts.flatMap vec3Floats ≠ [] := by
    obtain ⟨v, vs, rfl⟩ := List.exists_cons_of_ne_nil hv
    simp [vec3Floats]
  have hfne : faces.flatMap faceIndices ≠ [] := by
    obtain ⟨f, fs, rfl⟩ := List.exists_cons_of_ne_nil hf
    obtain ⟨i, is, hfi⟩ := List.exists_cons_of_ne_nil (hfaces f (by simp))
    subst hfi
    cases is <;> simp [faceIndices]
  have hfilt : faces.filter (fun f => f ≠ []) = faces := by
    rw [List.filter_eq_self]
    intro f hf'
    simpa using hfaces f hf'
  have hidx : ∀ (f : List Int), ∀ b ∈ faceIndices f, b < 4294967296 := by
    intro f
    induction f with
    | nil => simp [faceIndices]
    | cons i l ih =>
      cases l with
      | nil => simp only [faceIndices, List.mem_singleton]; rintro b rfl; omega
      | cons j l =>
        intro b hb
        simp only [faceIndices, List.mem_cons] at hb
        rcases hb with rfl | hb
        · exact int32Bits_lt i
        · exact ih b (by simpa [faceIndices] using hb)
  have hpoly : findChild (some (loadedNode env (newGeometry name verts faces))) b! "PolygonVertexIndex" =
      some (loadedNode env (.leaf b! "PolygonVertexIndex" [slice .i32 (faces.flatMap faceIndices)])) := by
    rw [show (some (loadedNode env (newGeometry name verts faces))) =
      (some (newGeometry name verts faces)).map (loadedNode env) from rfl, findChild_loaded]
    rfl
  have hvert : findChild (some (loadedNode env (newGeometry name verts faces))) b! "Vertices" =
      some (loadedNode env (.leaf b! "Vertices" [slice .f32 (verts.flatMap vec3Floats)])) := by
    rw [show (some (loadedNode env (newGeometry name verts faces))) =
      (some (newGeometry name verts faces)).map (loadedNode env) from rfl, findChild_loaded]
    rfl
  obtain ⟨w, hw1, hw2⟩ := f32_array_saved env cv laws (verts.flatMap vec3Floats) hvne (by
    intro b hb
    refine ⟨?_, hfl b hb⟩
    obtain ⟨v, _, hb⟩ := List.mem_flatMap.1 hb
    simp only [vec3Floats, List.mem_cons, List.not_mem_nil, or_false] at hb
    rcases hb with rfl | rfl | rfl
    · exact v.x.toNat_lt
    · exact v.y.toNat_lt
    · exact v.z.toNat_lt)
  constructor
  · simp only [geometryInit, hvert]
    rw [getFloat32Array_leaf cv _ w (verts.flatMap vec3Floats), vec3s_flatMap]
    · rw [loadedNode_attrs]
      simp only [Node.leaf, Node.attrs_mk, List.flatMap_cons, List.flatMap_nil, List.append_nil, slice, if_neg hvne]
      exact hw1
    · rw [hw2]; rfl
  · simp only [geometryInit, hpoly]
    rw [getInt32Array_leaf _ (faces.flatMap faceIndices), decode_faces faces hi, hfilt]
    rw [loadedNode_attrs]
    simp only [Node.leaf, Node.attrs_mk, List.flatMap_cons, List.flatMap_nil, List.append_nil, slice, if_neg hfne]
    exact i32_array_saved env cv laws _ hfne (by
      intro b hb
      obtain ⟨f, _, hb⟩ := List.mem_flatMap.1 hb
      exact hidx f b hb)

/-- Two triangles and two vertices meet the conditions of `geometry_saved`. -/
example : (geometryInit toyConv (loadedNode toyEnv (newGeometry b! "a" [⟨1, 2, 3⟩, ⟨4, 5, 6⟩] [[0, 1, 1], [1, 0, 0]]))).polygons =
    [[0, 1, 1], [1, 0, 0]] :=
  (geometry_saved toyEnv toyConv toy_laws b! "a" [⟨1, 2, 3⟩, ⟨4, 5, 6⟩] [[0, 1, 1], [1, 0, 0]] (by decide) (by decide)
    (by decide) (by decide) (by
      intro b hb
      refine .inr ⟨toSigned 4 b, ?_, ?_, rfl⟩ <;> revert b <;> decide)).2

/-! ## C108: names -/

/-- `obj.Name()` (fbx_object.go:52-54): the separators replaced by `::`. -/
def dispName : Bytes → Bytes
  | [] => []
  | [a] => [a]
  | a :: b :: rest => if a = 0 ∧ b = 1 then 58 :: 58 :: dispName rest else a :: dispName (b :: rest)

theorem dispName_plain (b : Bytes) (h : 0 ∉ b) : dispName b = b := by
  induction b with
  | nil => rfl
  | cons a b ih =>
    cases b with
    | nil => rfl
    | cons c b =>
      simp only [dispName]
      rw [if_neg (by rintro ⟨rfl, _⟩; simp at h), ih fun hc => h (by simp [hc])]

theorem splitName_sep (name typ : Bytes) (h : 0 ∉ name) : splitName (name ++ 0 :: 1 :: typ) = some (name, typ) := by
  induction name with
  | nil => simp [splitName]
  | cons a name ih =>
    have ha : a ≠ 0 := by rintro rfl; simp at h
    simp only [List.cons_append, splitName]
    rw [if_neg (by simp [ha]), ih fun hc => h (by simp [hc])]
    rfl

theorem dispName_sep (name typ : Bytes) (h : 0 ∉ name) (ht : 0 ∉ typ) :
    dispName (name ++ 0 :: 1 :: typ) = name ++ 58 :: 58 :: typ := by
  induction name with
  | nil => simp [dispName, dispName_plain typ ht]
  | cons a name ih =>
    have ha : a ≠ 0 := by rintro rfl; simp at h
    have hi := ih fun hc => h (by simp [hc])
    cases name with
    | nil => simp only [List.cons_append, List.nil_append] at hi ⊢; simp [dispName, ha, dispName_plain typ ht]
    | cons b name =>
      simp only [List.cons_append] at hi ⊢
      simp only [dispName]
      rw [if_neg (by simp [ha]), hi]

/-- The name of an object of a binary file or of the API is displayed as `name::Type`; after saving and loading
it is `Type::name`. -/
theorem name_saved (env : TextEnv) (name typ : Bytes) (h : 0 ∉ name) (ht : 0 ∉ typ) :
    dispName (name ++ 0 :: 1 :: typ) = name ++ b! "::" ++ typ ∧
      ∃ v, loaded env (.str (name ++ 0 :: 1 :: typ)) = [v] ∧ dispName (toStr (some v)) = typ ++ b! "::" ++ name := by
  refine ⟨by rw [dispName_sep name typ h ht]; simp, _, rfl, ?_⟩
  simp only [textName, splitName_sep name typ h, toStr]
  rw [dispName_plain]
  · simp
  · simp [h, ht]

/-- `FindChildModel(name)` (fbx_model.go:91-100) compares `Name()` with `name::Model`: it finds a model before
saving and no longer after loading, for every name that does not itself begin with `Model`. -/
theorem findModel_saved_false (env : TextEnv) (name : Bytes) (h : 0 ∉ name) (hm : name.take 5 ≠ b! "Model") :
    dispName (name ++ 0 :: 1 :: b! "Model") = name ++ b! "::Model" ∧
      ∃ v, loaded env (.str (name ++ 0 :: 1 :: b! "Model")) = [v] ∧ dispName (toStr (some v)) ≠ name ++ b! "::Model" := by
  obtain ⟨h1, v, h2, h3⟩ := name_saved env name b! "Model" h (by decide)
  refine ⟨by rw [h1]; simp, v, h2, ?_⟩
  rw [h3]
  intro he
  have he := congrArg (List.take 5) he
  have hl : (b! "Model" ++ b! "::" ++ name).take 5 = b! "Model" := rfl
  rw [hl] at he
  by_cases hlen : 5 ≤ name.length
  · rw [List.take_append_of_le_length hlen] at he
    exact hm he.symm
  · obtain ⟨k, hk⟩ : ∃ k, 5 - name.length = k + 1 := ⟨4 - name.length, by omega⟩
    have : (58 : UInt8) ∈ (name ++ b! "::Model").take 5 := by
      rw [List.take_append, hk]
      simp
    rw [← he] at this
    revert this; decide

example : (0 : UInt8) ∉ b! "Cube" ∧ (b! "Cube").take 5 ≠ b! "Model" := by decide

/-- The reader does not undo the escapes of `%q`. When the text `b` is written with escapes as `e` (a backslash
in a file name is doubled, control characters become `\\x01`), it comes back as `e`. -/
theorem escaped_saved_false (env : TextEnv) (z : Zlib) (seek : Bool) (name b e : Bytes) (hname : IdentTok name)
    (hid : name ≠ b! "FileId") (hq : env.quote (textName b) = 34 :: (e ++ [34])) (h34 : 34 ∉ e) :
    parseFile env z seek (writeText env [.leaf name [.str b]]) =
      some (some (.mk b! "_FBX_ROOT" [] [.leaf name [.str e]])) := by
  have h0 : dumps env 0 ([.leaf name [.str b]].filter fun n => n.name ≠ b! "FileId") =
      [] ++ (name ++ (58 :: ((32 :: 34 :: (e ++ [34])) ++ [10]))) := by
    have hf : ([.leaf name [.str b]].filter fun n : Node => n.name ≠ b! "FileId") = [.leaf name [.str b]] := by
      simp [Node.leaf, hid]
    rw [hf]
    simp [dumps, dump, Node.leaf, showValues, joined, showValue, hq, indentation]
  have h1 := run_node env [] name blank_nil hname _ [10] [] [.str e] [] (run_string env false e _ h34) (end_line env [])
  have h2 := NodesRun.trans (run_newline env _) h1
  have h3 := NodesRun.trans (run_comment env b! " -----------------------------------------------" _ (by decide)) h2
  have h4 := NodesRun.trans (run_comment env b! " Generator: https://github.com/binzume/modelconv" _ (by decide)) h3
  have h5 := parseFile_comment env z seek b! " FBX 7.5.0 project file" _ _ (by decide) (by decide) h4
  rw [writeText, header_lines, h0]
  simp only [List.cons_append, List.nil_append] at h5 ⊢
  exact h5

/-- A texture's file name: every save doubles the backslashes. -/
example (env : TextEnv) (z : Zlib) (seek : Bool) (hq : env.quote b! "a\\b.png" = b! "\"a\\\\b.png\"") :
    parseFile env z seek (writeText env [.leaf b! "FileName" [.str b! "a\\b.png"]]) =
      some (some (.mk b! "_FBX_ROOT" [] [.leaf b! "FileName" [.str b! "a\\\\b.png"]])) :=
  escaped_saved_false env z seek b! "FileName" b! "a\\b.png" b! "a\\\\b.png" (toy_ident _ (by decide)) (by decide) hq (by decide)

mutual

/-- All attributes are texts without a separator of name and type. -/
def plainNode : Node → Prop
  | .mk _ attrs children => (∀ v ∈ attrs, ∃ b, v = .str b ∧ splitName b = none) ∧ plainNodes children

def plainNodes : List Node → Prop
  | [] => True
  | n :: ns => plainNode n ∧ plainNodes ns

end

mutual

theorem loadedNode_plain (env : TextEnv) : ∀ n, plainNode n → loadedNode env n = n
  | .mk name attrs children, h => by
    obtain ⟨h1, h2⟩ := h
    rw [loadedNode, loadedNodes_plain env children h2]
    congr 1
    clear h2
    induction attrs with
    | nil => rfl
    | cons v vs ih =>
      obtain ⟨b, rfl, hb⟩ := h1 v (by simp)
      rw [List.flatMap_cons, string_saved env b hb, ih (fun w hw => h1 w (by simp [hw]))]
      rfl

theorem loadedNodes_plain (env : TextEnv) : ∀ ns, plainNodes ns → loadedNodes env ns = ns
  | [], _ => rfl
  | n :: ns, h => by rw [loadedNodes, loadedNode_plain env n h.1, loadedNodes_plain env ns h.2]

end

/-- The part of C108 that holds: nodes of plain texts that `%q` writes without escapes come back unchanged.
Missing: names with a separator and texts with escapes. -/
theorem plain_saved_partial (env : TextEnv) (z : Zlib) (seek : Bool) (nodes : List Node)
    (h : NodesSafe env nodes) (hp : plainNodes nodes) (hid : ∀ n ∈ nodes, n.name ≠ b! "FileId") :
    parseFile env z seek (writeText env nodes) = some (some (.mk b! "_FBX_ROOT" [] nodes)) := by
  have hf : nodes.filter (fun n => n.name ≠ b! "FileId") = nodes :=
    List.filter_eq_self.mpr fun n hn => by simpa using hid n hn
  have := write_parse env z seek nodes (by rw [hf]; exact h)
  rw [this, hf, loadedNodes_plain env nodes hp]

example : plainNodes [.mk b! "Properties70" [] [.leaf b! "P" [.str b! "Shading", .str b! "Phong"]]] ∧
    splitName b! "Phong" = none := by
  refine ⟨⟨⟨by simp, ⟨?_, trivial⟩, trivial⟩, trivial⟩, by decide⟩
  intro v hv
  simp only [List.mem_cons, List.not_mem_nil, or_false] at hv
  rcases hv with rfl | rfl
  · exact ⟨_, rfl, by decide⟩
  · exact ⟨_, rfl, by decide⟩

/-! ## C109: numbers with an exponent -/

/-- The text begins with a number token that the reader does not accept, like `1e-05`, or like `1e` and
`1.5e` in `1e+06` and `1.5e+06`. -/
def BadText (env : TextEnv) (t : Bytes) : Prop :=
  ∃ a r, t = a ++ r ∧ NumTok a ∧ (∀ c, r.head? = some c → inNumber c = false) ∧ (numberValue env a).2 = false

/-- A digit text with an exponent and without a decimal point is such a text, whatever `strconv` does. -/
theorem badText_exponent (env : TextEnv) (a r : Bytes) (ha : NumTok a) (he : 101 ∈ a) (hd : 46 ∉ a)
    (hr : ∀ c, r.head? = some c → inNumber c = false) : BadText env (a ++ r) := by
  refine ⟨a, r, rfl, ha, hr, ?_⟩
  have h1 : a.contains 46 = false := by simpa using hd
  have h2 : parseInt 64 a = none := by
    simp only [parseInt]
    rw [if_neg]
    rintro ⟨_, h, _⟩
    rw [List.all_eq_true] at h
    have hm : (101 : UInt8) ∈ (if a.head? = some 45 then a.tail else a) := by
      split
      · rename_i hh
        cases a with
        | nil => simp at he
        | cons x a =>
          simp only [List.head?_cons, Option.some.injEq] at hh
          subst hh
          simpa using he
      · exact he
    have := h _ hm
    revert this; decide
  simp only [numberValue, h1, h2]
  rfl

/-- A node with a number written as `BadText`, itself or in a child; everything in front of it is safe. -/
inductive BadNode (env : TextEnv) : Node → Prop
  | here (name : Bytes) (attrs : List Value) (v : Value) (more : List Value) (children : List Node)
      (hname : IdentTok name) (hattrs : ∀ w ∈ attrs, ValueSafe env w) (hv : ∀ d, BadText env (showValue env d v)) :
      BadNode env (.mk name (attrs ++ v :: more) children)
  | child (name : Bytes) (attrs : List Value) (before : List Node) (n : Node) (more : List Node)
      (hname : IdentTok name) (hattrs : ∀ w ∈ attrs, ValueSafe env w) (hbefore : NodesSafe env before)
      (hn : BadNode env n) : BadNode env (.mk name attrs (before ++ n :: more))

/-- The reader of attributes ends with an error. -/
def AttrFail (env : TextEnv) (comma : Bool) (w : Bytes) : Prop :=
  ∀ s fuel, TAt s w → w.length + 2 ≤ fuel → ∃ r, attrLoop env fuel comma s = some r ∧ r.2.2.err = some .other

/-- The reader of nodes ends with an error. -/
def NodesFail (env : TextEnv) (w : Bytes) : Prop :=
  ∀ s fuel, TAt s w → w.length + 2 ≤ fuel → ∃ r, nodeList env fuel s = some r ∧ r.2.err = some .other

theorem AttrRun.fail {env : TextEnv} {c c' : Bool} {w t : Bytes} {vs : List Value} (h1 : AttrRun env c c' w t vs)
    (h2 : AttrFail env c' t) : AttrFail env c (w ++ t) := by
  intro s fuel hs hf
  obtain ⟨f1, s1, hf1, a1, e1⟩ := h1 s fuel hs hf
  obtain ⟨r, e2, h⟩ := h2 s1 f1 a1 hf1
  exact ⟨pre vs r, by rw [e1, e2]; rfl, h⟩

theorem NodesRun.fail {env : TextEnv} {w t : Bytes} {ns : List Node} (h1 : NodesRun env w t ns) (h2 : NodesFail env t) :
    NodesFail env (w ++ t) := by
  intro s fuel hs hf
  obtain ⟨f1, s1, hf1, a1, e1⟩ := h1 s fuel hs hf
  obtain ⟨r, e2, h⟩ := h2 s1 f1 a1 hf1
  exact ⟨preNodes ns r, by rw [e1, e2]; rfl, h⟩

theorem attrLoop_failed (env : TextEnv) (fuel : Nat) (comma : Bool) (s : TS) (h : s.err = some .other) (hf : 0 < fuel) :
    attrLoop env fuel comma s = some ([], [], s) := by
  obtain ⟨f, rfl⟩ : ∃ f, fuel = f + 1 := ⟨fuel - 1, by omega⟩
  simp [attrLoop, h]

theorem nodeList_failed (env : TextEnv) (fuel : Nat) (s : TS) (h : s.err = some .other) (hf : 0 < fuel) :
    nodeList env fuel s = some ([], s) := by
  obtain ⟨f, rfl⟩ : ∃ f, fuel = f + 1 := ⟨fuel - 1, by omega⟩
  simp [nodeList, h]

theorem fail_bad (env : TextEnv) (comma : Bool) (a t : Bytes) (ha : NumTok a) (ht : t ≠ [])
    (hr : ∀ c, t.head? = some c → inNumber c = false) (hv : (numberValue env a).2 = false) :
    AttrFail env comma (32 :: (a ++ t)) := by
  intro s fuel hs hf
  obtain ⟨c, t, rfl⟩ := List.exists_cons_of_ne_nil ht
  obtain ⟨s1, g1, a1⟩ := tok_number [32] a c t hs blank_space ha (hr c rfl)
  obtain ⟨f0, rfl⟩ : ∃ f0, fuel = f0 + 1 := ⟨fuel - 1, by omega⟩
  have he : s1.fail.err = some .other := by simp [TS.fail, a1.err]
  have h1 := attrLoop_failed env f0 false s1.fail he (by omega)
  refine ⟨([(numberValue env a).1], [], s1.fail), ?_, he⟩
  simp only [attrLoop, hs.err, g1, hv]
  simp [h1]

theorem node_fail (env : TextEnv) (ind name : Bytes) (hind : Blank ind) (hname : IdentTok name) (w : Bytes)
    (h : AttrFail env false w) : NodesFail env (ind ++ (name ++ 58 :: w)) := by
  intro s fuel hs hf
  obtain ⟨s1, g1, a1⟩ := tok_ident ind name 58 _ hs hind hname rfl
  obtain ⟨s2, g2, a2⟩ := tok_colon [] _ a1 blank_nil
  obtain ⟨f0, rfl⟩ : ∃ f0, fuel = f0 + 1 := ⟨fuel - 1, by omega⟩
  have hsk : s1.skip .colon = s2 := by simp [TS.skip, g2]
  have hname0 : 0 < name.length := List.length_pos_iff.2 hname.ne
  obtain ⟨r, e, he⟩ := h s2 f0 a2 (by simp only [List.length_append, List.length_cons] at hf; omega)
  have hno : r.2.2.noEof = r.2.2 := by simp [TS.noEof, he]
  have hf0 : 0 < f0 := by simp only [List.length_append, List.length_cons] at hf; omega
  have hl := nodeList_failed env f0 r.2.2 he hf0
  refine ⟨(.mk name r.1 r.2.1 :: [], r.2.2), ?_, he⟩
  simp only [nodeList, hs.err, g1, hsk, e, hno, hl]
  simp

theorem block_fail (env : TextEnv) (w : Bytes) (h : NodesFail env w) : AttrFail env false (b! " {\n" ++ w) := by
  intro s fuel hs hf
  obtain ⟨s1, g1, a1⟩ := tok_open [32] _ hs blank_space
  obtain ⟨f0, rfl⟩ : ∃ f0, fuel = f0 + 1 := ⟨fuel - 1, by omega⟩
  obtain ⟨r, e, he⟩ := NodesRun.fail (run_newline env w) h s1 f0 a1 (by
    simp only [List.length_append, List.length_cons, List.length_nil] at hf ⊢; omega)
  exact ⟨([], r.1, r.2), by simp [attrLoop, hs.err, g1, e], he⟩

theorem joined_append (sep : Bytes) (as bs : List Bytes) (ha : as ≠ []) (hb : bs ≠ []) :
    joined sep (as ++ bs) = joined sep as ++ (sep ++ joined sep bs) := by
  induction as with
  | nil => exact absurd rfl ha
  | cons a as ih =>
    cases as with
    | nil =>
      obtain ⟨b, bs, rfl⟩ := List.exists_cons_of_ne_nil hb
      simp [joined]
    | cons a' as =>
      simp only [List.cons_append, joined] at ih ⊢
      rw [ih (by simp)]
      simp

theorem joined_head (v : Bytes) (vs : List Bytes) :
    ∃ t, joined [44, 32] (v :: vs) = v ++ t ∧ (t = [] ∨ t.head? = some 44) := by
  cases vs with
  | nil => exact ⟨[], by simp [joined], .inl rfl⟩
  | cons w vs => exact ⟨44 :: 32 :: joined [44, 32] (w :: vs), by simp [joined], .inr rfl⟩

theorem dump_bad (env : TextEnv) (n : Node) (h : BadNode env n) : ∀ d t, NodesFail env (dump env d n ++ t) := by
  induction h with
  | here name attrs v more children hname hattrs hv =>
    intro d t
    simp only [dump]
    -- what follows the attributes begins with a space or the end of the line
    obtain ⟨e, he, hee⟩ : ∃ e, (if children ≠ [] ∨ attrs ++ v :: more = [] then
        b! " {\n" ++ (dumps env (d + 1) children ++ (indentation d ++ b! "}\n")) else [10]) = e ∧
        ∃ c e', e = c :: e' ∧ Follows c := by
      refine ⟨_, rfl, ?_⟩
      split
      · exact ⟨32, _, rfl, .inr (.inr rfl)⟩
      · exact ⟨10, [], rfl, .inr (.inl rfl)⟩
    rw [he]
    obtain ⟨c, e', rfl, hc⟩ := hee
    obtain ⟨a, r, hr0, ha, hr, hb⟩ := hv d
    obtain ⟨x, hx, hx'⟩ := joined_head (showValue env d v) (more.map (showValue env d))
    -- the bad value and everything behind it
    have hfail : ∀ comma, AttrFail env comma (32 :: (a ++ (r ++ (x ++ (c :: e' ++ t))))) := by
      intro comma
      refine fail_bad env comma a _ ha (by simp) ?_ hb
      intro c' hc'
      cases r with
      | cons y r => exact hr c' (by simpa using hc')
      | nil =>
        rcases hx' with rfl | hx'
        · simp only [List.nil_append, List.cons_append, List.head?_cons, Option.some.injEq] at hc'
          subst hc'; exact hc.number
        · cases x with
          | nil => simp at hx'
          | cons y x =>
            simp only [List.head?_cons, Option.some.injEq] at hx'
            simp only [List.nil_append, List.cons_append, List.head?_cons, Option.some.injEq] at hc'
            rw [← hc', hx']; rfl
    have hall : AttrFail env false (showValues env d (attrs ++ v :: more) ++ (c :: e' ++ t)) := by
      unfold showValues
      rw [if_neg (by simp)]
      by_cases hne : attrs = []
      · subst hne
        simp only [List.nil_append, List.map_cons]
        rw [hx, hr0]
        have := hfail false
        simpa only [List.append_assoc, List.cons_append] using this
      · rw [List.map_append, List.map_cons, joined_append _ _ _ (by simpa using hne) (by simp), hx, hr0]
        have h1 := run_values env d (32 :: (a ++ (r ++ (x ++ (c :: e' ++ t))))) 44 (.inl rfl) attrs false hne hattrs
        have h2 := run_comma env false (32 :: (a ++ (r ++ (x ++ (c :: e' ++ t)))))
        have h3 := AttrRun.fail h1 (AttrRun.fail h2 (hfail true))
        simpa only [List.append_assoc, List.cons_append, List.nil_append] using h3
    have := node_fail env (indentation d) name (blank_spaces _) hname _ hall
    simpa only [List.append_assoc, List.cons_append] using this
  | child name attrs before n more hname hattrs hbefore hn ih =>
    intro d t
    simp only [dump]
    rw [if_pos (Or.inl (by simp))]
    have hd : ∀ ns ms : List Node, ∀ k, dumps env k (ns ++ ms) = dumps env k ns ++ dumps env k ms := by
      intro ns ms k
      induction ns with
      | nil => rfl
      | cons a ns ih => simp [dumps, ih]
    rw [hd]
    simp only [dumps]
    have h1 := ih (d + 1) (dumps env (d + 1) more ++ (indentation d ++ (b! "}\n" ++ t)))
    have h2 := NodesRun.fail (run_dumps env before hbefore (d + 1) _) h1
    have h3 := block_fail env _ h2
    have h4 : AttrFail env false (showValues env d attrs ++ (b! " {\n" ++ (dumps env (d + 1) before ++
        (dump env (d + 1) n ++ (dumps env (d + 1) more ++ (indentation d ++ (b! "}\n" ++ t))))))) :=
      AttrRun.fail (run_showValues env d 32 _ (.inr (.inr rfl)) attrs hattrs) h3
    have h5 := node_fail env (indentation d) name (blank_spaces _) hname _ h4
    simpa only [List.append_assoc, List.cons_append, List.nil_append] using h5

/-- A document with a single number that is written as `1e-05`, `1e+06` or `1.5e+06`, at any place, cannot be
loaded again after saving it. -/
theorem exponent_saved_false (env : TextEnv) (z : Zlib) (seek : Bool) (before : List Node) (n : Node)
    (more nodes : List Node) (hb : NodesSafe env before) (hn : BadNode env n)
    (hnodes : nodes.filter (fun n => n.name ≠ b! "FileId") = before ++ n :: more) :
    parseFile env z seek (writeText env nodes) = some none := by
  have hd : ∀ ns ms : List Node, ∀ k, dumps env k (ns ++ ms) = dumps env k ns ++ dumps env k ms := by
    intro ns ms k
    induction ns with
    | nil => rfl
    | cons a ns ih => simp [dumps, ih]
  have h1 := NodesRun.fail (run_dumps env before hb 0 _) (dump_bad env n hn 0 (dumps env 0 more))
  have h2 := NodesRun.fail (run_newline env _) h1
  have h3 := NodesRun.fail (run_comment env b! " -----------------------------------------------" _ (by decide)) h2
  have h4 := NodesRun.fail (run_comment env b! " Generator: https://github.com/binzume/modelconv" _ (by decide)) h3
  obtain ⟨t, ht⟩ : ∃ t, writeText env nodes = 59 :: (b! " FBX 7.5.0 project file" ++ 10 :: t) ∧ NodesFail env t := by
    refine ⟨_, ?_, h4⟩
    rw [writeText, header_lines, hnodes, hd]
    simp only [List.cons_append, List.nil_append, dumps]
  obtain ⟨ht, hfail⟩ := ht
  rw [ht]
  have hp := parse_text z seek (59 :: (b! " FBX 7.5.0 project file" ++ 10 :: t)) (by
    simp only [List.length_cons, List.length_append]; omega) rfl
  obtain ⟨fuel, hf, e⟩ := parseText_comment env b! " FBX 7.5.0 project file" t (by decide) (by decide)
  obtain ⟨r, e2, he⟩ := hfail ⟨[], t, none⟩ fuel (at_nil t) hf
  simp only [parseFile, hp, parseText]
  rw [e, e2]
  simp [he]

/-- A property with the value 0.00001, which Go prints as `1e-05`, in the settings of a document. -/
example (env : TextEnv) (h : env.showF64 5 = b! "1e-05")
    (hq : ∀ b : Bytes, env.quote b = 34 :: (b ++ [34])) :
    BadNode env (.mk b! "GlobalSettings" [] [.mk b! "P" [.str b! "UnitScaleFactor", .num .f64 5] []]) := by
  refine .child _ _ [] _ [] (toy_ident _ (by decide)) (by simp) .nil ?_
  refine .here _ [_] _ [] [] (toy_ident _ (by decide)) ?_ ?_
  · intro w hw
    rw [List.mem_singleton.1 hw]
    exact ⟨hq _, by decide⟩
  · intro d
    show BadText env (env.showF64 5)
    rw [h]
    have := badText_exponent env b! "1e-05" [] ⟨by simp, by intro c hc; simp at hc; subst hc; decide, by decide⟩ (by decide)
      (by decide) (by simp)
    simpa using this

/-! ## C110: empty arrays -/

/-- An empty array attribute is lost by saving and loading, and the attributes behind it move to the front. -/
theorem empty_array_saved_false (env : TextEnv) (ty : NumTy) (name : Bytes) (more : List Value) (cs : List Node) :
    (loadedNode env (.mk name (.arr ty [] :: more) cs)).attrs = (loadedNode env (.mk name more cs)).attrs := by
  simp [loadedNode_attrs, loaded]

theorem ident_of (a : Bytes) (h : a ≠ [] ∧ (a.head?.all startsIdent && a.all inIdent) = true) : IdentTok a := toy_ident a h

/-- A file of another program that has an empty array, `Edges: *0 {`, `a: `, `}`: the closing brace of the array
is taken for the end of the enclosing node. The node `a` ends there, for all that follows (`t`). -/
theorem empty_array_read_false (env : TextEnv) (a e t : Bytes) (ha : IdentTok a) (he : IdentTok e) :
    NodesRun env (a ++ b! ": {\n" ++ e ++ b! ": *0 {\na: \n}\n") t [.mk a [] [.mk e [.nilArr .i32] []]] := by
  -- the array: the attribute and the rest of the line
  have harr : AttrRun env false false b! " *0 {\na: " (10 :: (125 :: 10 :: t)) [.nilArr .i32] := by
    intro s fuel hs hf
    obtain ⟨s1, g1, a1⟩ := tok_asterisk [32] _ hs blank_space
    obtain ⟨s2, g2, a2⟩ := tok_number [] [48] 32 _ a1 blank_nil
      ⟨by simp, by intro c hc; simp at hc; subst hc; decide, by decide⟩ rfl
    obtain ⟨s3, g3, a3⟩ := tok_open [32] _ a2 blank_space
    obtain ⟨s4, g4, a4⟩ := tok_eol [] _ a3 blank_nil
    obtain ⟨s5, g5, a5⟩ := tok_ident [] [97] 58 _ a4 blank_nil ident_a rfl
    obtain ⟨s6, g6, a6⟩ := tok_colon [] _ a5 blank_nil
    obtain ⟨f0, rfl⟩ : ∃ f0, fuel = f0 + 1 := ⟨fuel - 1, by omega⟩
    have hsk : s2.skip .blockStart = s3 := by simp [TS.skip, g3]
    have hc : toColon (s3.buf.length + s3.rest.length + 2) s3 = some s6 := by
      obtain ⟨f0, hf0⟩ : ∃ f0, s3.buf.length + s3.rest.length + 2 = f0 + 1 + 1 + 1 :=
        ⟨s3.buf.length + s3.rest.length - 1, by
          rw [a3.length, show ([10, 97, 58, 32].append (10 :: 125 :: 10 :: t)).length = t.length + 7 from rfl]
          omega⟩
      rw [hf0]
      simp [toColon, a3.err, g4, a4.err, g5, a5.err, g6]
    have hsz : arraySize [48] = some 0 := by decide
    have hp : parseArrayProp env s1 = some (.nilArr .i32, s6) := by
      simp [parseArrayProp, g2, hsz, hsk, hc, numbersValue, slice]
    have hblank : TAt s6 ([32] ++ 10 :: (125 :: 10 :: t)) := a6
    -- one more space in front of the end of the line
    refine ⟨f0, ⟨[], 10 :: (125 :: 10 :: t), none⟩, ?_, at_nil _, ?_⟩
    · simp only [List.length_append, List.length_cons, List.length_nil] at hf ⊢; omega
    · have h1 : attrLoop env f0 false s6 = attrLoop env f0 false ⟨[], 10 :: (125 :: 10 :: t), none⟩ := by
        obtain ⟨f1, rfl⟩ : ∃ f1, f0 = f1 + 1 := ⟨f0 - 1, by
          simp only [List.length_append, List.length_cons, List.length_nil] at hf; omega⟩
        have k1 := (getToken_at [32] 10 _ hblank blank_space rfl)
        have k2 : getToken ⟨[], 10 :: (125 :: 10 :: t), none⟩ = tokenAt 10 ⟨[], 125 :: 10 :: t, none⟩ :=
          getToken_at [] 10 (125 :: 10 :: t) (at_nil _) blank_nil rfl
        simp [attrLoop, a6.err, k1, k2]
      have hg : (getToken s).1 = .asterisk := by rw [g1]
      simp only [attrLoop, hs.err, g1, hp, h1]
      simp only [Option.isSome_none, Bool.false_eq_true, if_false, reduceCtorEq, false_and, if_true]
      rfl
  have hchild := run_node env [] e blank_nil he _ [10] (125 :: 10 :: t) [.nilArr .i32] [] harr (end_line env _)
  have hblock := end_block env 0 _ (10 :: t) [.mk e [.nilArr .i32] []] hchild
  have hnode := run_node env [] a blank_nil ha [] _ (10 :: t) [] _ (run_noValues env _) hblock
  have := NodesRun.trans hnode (run_newline env t)
  simpa only [List.append_assoc, List.cons_append, List.nil_append, indentation, Nat.mul_zero, List.replicate_zero] using this

/-- At the top a closing brace ends the file: whatever follows is dropped without an error. -/
theorem stray_brace_false (env : TextEnv) (z : Zlib) (seek : Bool) (a t : Bytes) (ns : List Node) (hl : 20 ≤ a.length)
    (hlf : ∀ b ∈ a, b ≠ 10) (hs : NodesSafe env ns) :
    parseFile env z seek (59 :: (a ++ 10 :: (dumps env 0 ns ++ 125 :: t))) =
      some (some (.mk b! "_FBX_ROOT" [] (loadedNodes env ns))) := by
  have hp := parse_text z seek (59 :: (a ++ 10 :: (dumps env 0 ns ++ 125 :: t))) (by
    simp only [List.length_cons, List.length_append]; omega) rfl
  obtain ⟨fuel, hf, e⟩ := parseText_comment env a (dumps env 0 ns ++ 125 :: t) hl hlf
  obtain ⟨f1, s1, hf1, a1, e1⟩ := run_dumps env ns hs 0 (125 :: t) ⟨[], _, none⟩ fuel (at_nil _) hf
  obtain ⟨s2, g2, a2⟩ := tok_close [] t a1 blank_nil
  obtain ⟨f2, rfl⟩ : ∃ f2, f1 = f2 + 1 := ⟨f1 - 1, by omega⟩
  have e2 : nodeList env (f2 + 1) s1 = some ([], s2) := by simp [nodeList, a1.err, g2]
  simp only [parseFile, hp, parseText]
  rw [e, e1, e2]
  simp [a2.err, preNodes]

/-- The two last theorems together: a node `b` behind an empty array is not where the file has it, and what
follows its own brace is dropped. -/
example (z : Zlib) (seek : Bool) :
    ∃ r, parseFile toyEnv z seek (59 :: (b! " 01234567890123456789" ++ 10 ::
      b! "A: {\nE: *0 {\na: \n}\nB: 1\n}\nC: 2\n")) = some (some r) ∧
      r.children.map Node.name = [b! "A", b! "B"] := by
  have h1 := empty_array_read_false toyEnv b! "A" b! "E" (b! "B: 1\n" ++ b! "}\nC: 2\n") (ident_of _ (by decide))
    (ident_of _ (by decide))
  have hB : NodesSafe toyEnv [.mk b! "B" [.num .i64 1] []] :=
    .cons _ _ (.mk _ _ _ (ident_of _ (by decide)) (by
      intro v hv
      rw [List.mem_singleton.1 hv]
      show 1 < 256 ^ 8; decide) .nil) .nil
  have h2 := run_dumps toyEnv _ hB 0 (b! "}\nC: 2\n")
  have hp := parse_text z seek (59 :: (b! " 01234567890123456789" ++ 10 ::
      b! "A: {\nE: *0 {\na: \n}\nB: 1\n}\nC: 2\n")) (by decide) rfl
  obtain ⟨fuel, hf, e⟩ := parseText_comment toyEnv b! " 01234567890123456789"
    b! "A: {\nE: *0 {\na: \n}\nB: 1\n}\nC: 2\n" (by decide) (by decide)
  have h3 := NodesRun.trans h1 h2
  obtain ⟨f1, s1, hf1, a1, e1⟩ := h3 ⟨[], _, none⟩ fuel (at_nil _) hf
  obtain ⟨s2, g2, a2⟩ := tok_close [] b! "\nC: 2\n" a1 blank_nil
  obtain ⟨f2, rfl⟩ : ∃ f2, f1 = f2 + 1 := ⟨f1 - 1, by omega⟩
  have e2 : nodeList toyEnv (f2 + 1) s1 = some ([], s2) := by simp [nodeList, a1.err, g2]
  rw [e2] at e1
  refine ⟨.mk b! "_FBX_ROOT" [] ([.mk b! "A" [] [.mk b! "E" [.nilArr .i32] []]] ++ (loadedNodes toyEnv [.mk b! "B" [.num .i64 1] []] ++ [])), ?_, rfl⟩
  simp only [parseFile, hp, parseText]
  rw [e]
  have e1' := e1
  simp only [Option.map_some, preNodes] at e1'
  rw [show nodeList toyEnv fuel ⟨[], b! "A: {\nE: *0 {\na: \n}\nB: 1\n}\nC: 2\n", none⟩ = _ from e1']
  simp [a2.err]

/-! ## C111: the first line -/

/-- A short comment in the first line: the bytes that were read to recognise the file are not used up by the
comment, bytes that are put back come behind them, and a good file is refused. The same file with a longer
comment is read. -/
theorem short_first_line_false (env : TextEnv) (z : Zlib) (seek : Bool) :
    parseFile env z seek (b! "; FBX\n" ++ b! "Creator: \"somebody\"\n") = some none ∧
      ∃ r, parseFile env z seek (b! "; FBX 7.5.0 project file\n" ++ b! "Creator: \"somebody\"\n") = some (some r) ∧
        toStr (attr (findChild (some r) b! "Creator") 0) = b! "somebody" := by
  constructor
  · have hp := parse_text z seek (b! "; FBX\n" ++ b! "Creator: \"somebody\"\n") (by decide) rfl
    simp only [parseFile, hp]
    rfl
  · have hc : NodesRun env b! "Creator: \"somebody\"\n" [] [.mk b! "Creator" [.str b! "somebody"] []] :=
      run_node env [] b! "Creator" blank_nil (ident_of _ (by decide)) b! " \"somebody\"" [10] [] [.str b! "somebody"] []
        (run_string env false b! "somebody" [10] (by decide)) (end_line env [])
    have := parseFile_comment env z seek b! " FBX 7.5.0 project file" _ _ (by decide) (by decide) hc
    exact ⟨_, this, rfl⟩

/-- The part of C111 that holds: a saved document behind any first line of at least 21 bytes is read. Missing:
files of other programs with a shorter first line. -/
theorem first_line_partial (env : TextEnv) (z : Zlib) (seek : Bool) (a : Bytes) (nodes : List Node)
    (hl : 20 ≤ a.length) (hlf : ∀ b ∈ a, b ≠ 10) (h : NodesSafe env nodes) :
    parseFile env z seek (59 :: (a ++ 10 :: dumps env 0 nodes)) =
      some (some (.mk b! "_FBX_ROOT" [] (loadedNodes env nodes))) := by
  have := run_dumps env nodes h 0 []
  exact parseFile_comment env z seek a _ _ hl hlf this

example : 20 ≤ (b! " FBX 7.4.0 project file").length ∧ ∀ b ∈ b! " FBX 7.4.0 project file", b ≠ 10 := by decide

/-! ### C106: names and lists of other programs -/

/-- C106. Names of ASCII letters, digits, underscores and hyphens that begin with a letter or an underscore
are names the reader takes whole, so that `write_parse` covers them. -/
theorem ident_name (a : Bytes) (hne : a ≠ [])
    (hfirst : ∀ c, a.head? = some c → (65 ≤ c ∧ c ≤ 90) ∨ (97 ≤ c ∧ c ≤ 122) ∨ c = 95)
    (hall : ∀ c ∈ a, (65 ≤ c ∧ c ≤ 90) ∨ (97 ≤ c ∧ c ≤ 122) ∨ (48 ≤ c ∧ c ≤ 57) ∨ c = 95 ∨ c = 45) : IdentTok a := by
  have hk : ∀ c : UInt8, (65 ≤ c ∧ c ≤ 90) ∨ (97 ≤ c ∧ c ≤ 122) ∨ c = 95 → startsIdent c = true := by
    intro c h
    simp only [startsIdent, Bool.and_eq_true, decide_eq_true_eq, UInt8.le_iff_toNat_le] at h ⊢
    rcases h with h | h | rfl
    · simp only [UInt8.reduceToNat] at h ⊢; omega
    · simp only [UInt8.reduceToNat] at h ⊢; omega
    · decide
  refine ⟨hne, fun c hc => hk c (hfirst c hc), ?_⟩
  intro c hc
  simp only [inIdent, Bool.or_eq_true]
  rcases hall c hc with h | h | h | h | rfl
  · exact Or.inl (Or.inl (hk c (Or.inl h)))
  · exact Or.inl (Or.inl (hk c (Or.inr (Or.inl h))))
  · exact Or.inl (Or.inr (by simpa [isDigit] using h))
  · exact Or.inl (Or.inl (hk c (Or.inr (Or.inr h))))
  · exact Or.inr rfl

example : IdentTok b! "Blend-Shape_01" :=
  ident_name _ (by decide) (by decide) (by decide)

theorem run_comma_newline (env : TextEnv) (comma : Bool) (t : Bytes) : AttrRun env comma false [44, 10] t [] := by
  have h2 : AttrRun env true false [10] t [] := by
    intro s fuel hs hf
    obtain ⟨s1, g1, a1⟩ := tok_eol [] t hs blank_nil
    obtain ⟨f0, rfl⟩ : ∃ f0, fuel = f0 + 1 := ⟨fuel - 1, by omega⟩
    refine ⟨f0, s1, ?_, a1, ?_⟩
    · simp only [List.length_append, List.length_cons] at hf ⊢; omega
    · simp only [attrLoop, hs.err, g1]
      simp only [Option.isSome_none, Bool.false_eq_true, if_false, reduceCtorEq, and_false, Bool.true_eq_false,
        decide_false]
      cases attrLoop env f0 false s1 <;> rfl
  exact (run_comma env comma (10 :: t)).trans h2

/-- C106. A list of values that goes on in the next line behind a comma is one list. -/
theorem list_lines (env : TextEnv) (z : Zlib) (seek : Bool) (hdr name a b : Bytes) (hl : 20 ≤ hdr.length)
    (hlf : ∀ b ∈ hdr, b ≠ 10) (hname : IdentTok name) (ha : 34 ∉ a) (hb : 34 ∉ b) :
    parseFile env z seek (59 :: (hdr ++ 10 :: (name ++ b! ": \"" ++ a ++ b! "\",\n \"" ++ b ++ b! "\"\n"))) =
      some (some (.mk b! "_FBX_ROOT" [] [.mk name [.str a, .str b] []])) := by
  refine parseFile_comment env z seek hdr _ _ hl hlf ?_
  have h1 := (run_string env false a (([44, 10] ++ (32 :: (34 :: (b ++ [34])))) ++ [10]) ha).trans
    ((run_comma_newline env false ((32 :: (34 :: (b ++ [34]))) ++ [10])).trans (run_string env false b [10] hb))
  have h2 := run_node env [] name blank_nil hname _ [10] [] _ [] (by simpa using h1) (end_line env [])
  simpa using h2

example : IdentTok b! "Takes" ∧ (34 : UInt8) ∉ b! "x" ∧ 20 ≤ (b! " FBX 7.4.0 project file").length :=
  ⟨ident_name _ (by decide) (by decide) (by decide), by decide, by decide⟩

end Verif.Fbx
