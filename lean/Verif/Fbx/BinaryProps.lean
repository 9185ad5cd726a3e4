import Verif.Fbx.BinaryLemmas
import Verif.Fbx.Encoder

/-!
C32: binary node trees are parsed faithfully. C33: skipping on input that cannot be seeked.
C77: files that were cut short.
-/

namespace Verif.Fbx

open Verif.Mmd (Bytes ofLe leBytes toSigned ofLe_leBytes leBytes_length)

/-! ## C32 -/

/-- C32. Parsing an encoding of a file yields exactly the tree that was encoded: names, attribute
values and children, to any depth, with 32 bit headers (versions before 7500) and 64 bit headers,
with arrays stored plain or compressed, with or without null records, and with or without a
footer. On seekable input there is no condition on the decompressor; otherwise it must have taken
all of its input (part of `EncFile`). -/
theorem parse_encoded (z : Zlib) (seek : Bool) (version : Nat) (nodes : List Node) (out : Bytes)
    (h : EncFile z seek version nodes out) :
    parse z seek out = some (.ok (.mk b! "_FBX_ROOT" [] nodes)) :=
  parse_encoded_aux z seek version nodes out h

/-- C32, with an encoder: every tree that fits into the format is read back. -/
theorem parse_encodeFile (z : Zlib) (seek : Bool) (version : Nat) (nodes : List Node)
    (hv : version < 2 ^ 32) (h : ValidNodes nodes)
    (hs : OffsetOK (fieldWidth version) (27 + nodesSize (fieldWidth version) nodes)) :
    parse z seek (encodeFile version nodes) = some (.ok (.mk b! "_FBX_ROOT" [] nodes)) :=
  parse_encoded z seek version nodes _ (encodeFile_enc z seek version nodes hv h hs)

/-- Two trees never share an encoding, whatever compression was used for each. -/
theorem encoding_unique (z : Zlib) (v v' : Nat) (n n' : List Node) (out : Bytes)
    (h : EncFile z true v n out) (h' : EncFile z true v' n' out) : n = n' := by
  have h1 := parse_encoded z true v n out h
  rw [parse_encoded z true v' n' out h'] at h1
  injection h1 with h1; injection h1 with h1; injection h1 with _ _ h1
  exact h1.symm

/-- A tree used in the examples: nested children, strings, numbers and arrays. -/
def sampleTree : List Node :=
  [.mk b! "A" [.num .i32 5, .str b! "xy"] [.mk b! "B" [.arr .f64 [1, 2]] [], .mk b! "C" [] []],
   .mk b! "D" [.raw [1, 2, 3]] []]

example : ValidNodes sampleTree := by
  simp only [sampleTree, ValidNodes, ValidNode]
  refine ⟨⟨by simp, by simp, ?_, ⟨by simp, by simp, ?_, trivial⟩,
    ⟨by simp, by simp, by simp, trivial⟩, trivial⟩, ⟨by simp, by simp, ?_, trivial⟩, trivial⟩
  all_goals
    intro v hv
    simp at hv
    first
      | (rcases hv with rfl | rfl <;> simp [ValidAttr, NumTy.width])
      | (subst hv; simp [ValidAttr, NumTy.width])

example : OffsetOK (fieldWidth 7400) (27 + nodesSize (fieldWidth 7400) sampleTree) ∧
    OffsetOK (fieldWidth 7500) (27 + nodesSize (fieldWidth 7500) sampleTree) := by
  constructor <;> (left; decide)

/-- The footer that FBX writers put behind the last null record is an allowed tail: its first 13
bytes, read as a header, are not a node. -/
def realFooter : Bytes :=
  [0xfa, 0xbc, 0xab, 0x09, 0xd0, 0xc8, 0xd4, 0x66, 0xb1, 0x76, 0xfb, 0x83, 0x1c, 0xf7, 0x26, 0x7e]
    ++ List.replicate 160 0

example : EncTail 4 100000 realFooter := by
  have h := EncTail.footer (w := 4) (total := 100000) 0x09abbcfa 0x66d4c8d0 0x83fb76b1
    ([0xf7, 0x26, 0x7e] ++ List.replicate 25 0) (List.replicate 135 0) (by decide)
    (.inl (by decide)) (by decide) (by decide) (by decide) (by decide)
  have e : realFooter = leBytes 4 0x09abbcfa ++ (leBytes 4 0x66d4c8d0 ++ (leBytes 4 0x83fb76b1 ++
      (UInt8.ofNat ([0xf7, 0x26, 0x7e] ++ List.replicate 25 (0 : UInt8)).length ::
        (([0xf7, 0x26, 0x7e] ++ List.replicate 25 0) ++ List.replicate 135 0)))) := by
    set_option maxRecDepth 10000 in decide
  rw [e]
  exact h

/-! ## C33 -/

/-- What `SkipTo` should do: leave the reader at the wanted offset. -/
def SkipsTo (s : BR) (p : Nat) : Prop :=
  (s.skipTo p).1 = none ∧ (s.skipTo p).2.pos = p ∧ (s.skipTo p).2.real = p

/-- C33 is false: on input that cannot be seeked, skipping forward by a positive distance counts
the distance twice, so the recorded position is wrong from then on, whatever the input. -/
theorem skipTo_stream_false (s : BR) (p : Nat) (hseek : s.seek = false) (hsync : s.pos = s.real)
    (hlt : s.real < p) (hp : p ≤ s.data.length) :
    (s.skipTo p).1 = none ∧ (s.skipTo p).2.real = p ∧
      (s.skipTo p).2.pos = (p : Int) + (p - s.real : Nat) ∧ ¬ SkipsTo s p := by
  have hk : min ((p : Int) - s.pos).toNat (s.data.length - s.real) = p - s.real := by omega
  have ho : ((p : Int) - s.pos).toNat = p - s.real := by omega
  have e : s.skipTo p = (none, { s with pos := (p : Int) + ((p - s.real : Nat) : Int), real := p }) := by
    unfold BR.skipTo
    rw [if_neg (by omega), if_neg (by simp [hseek])]
    simp only [ho]
    rw [ho] at hk
    rw [hk, if_neg (by omega)]
    congr 2
    omega
  refine ⟨by rw [e], by rw [e], by rw [e], ?_⟩
  rintro ⟨_, h2, _⟩
  rw [e] at h2
  simp only at h2
  omega

/-- C33, the part that holds: seekable input, or a skip of no distance. -/
theorem skipTo_partial (s : BR) (p : Nat) (hsync : s.pos = s.real) (hle : s.real ≤ p)
    (h : s.seek = true ∨ s.real = p) : SkipsTo s p := by
  unfold SkipsTo BR.skipTo
  rw [if_neg (by omega)]
  split
  · simp
  · have hp : s.real = p := by
      rcases h with h | h
      · rename_i hs; exact absurd h hs
      · exact h
    have h0 : ((p : Int) - s.pos).toNat = 0 := by omega
    simp only [h0]
    simp
    omega

/-- A skip backwards is refused and moves nothing. -/
theorem skipTo_back (s : BR) (p : Nat) (hsync : s.pos = s.real) (h : p < s.real) :
    s.skipTo p = (some .other, s) := by
  unfold BR.skipTo
  rw [if_pos (by omega)]

example : ∃ s : BR, s.seek = false ∧ s.pos = s.real ∧ s.real < 10 ∧ 10 ≤ s.data.length ∧
    (s.skipTo 10).2.pos = 16 :=
  ⟨⟨List.replicate 20 0, false, 4, 4, 7400, none⟩, rfl, rfl, by decide, by decide, by decide⟩

/-! ## C77 -/

theorem readProps_prefix (z : Zlib) {d : Bytes} {seek : Bool} {ver : Nat} {rest : Bytes}
    {vs : List Value} {b : Bytes} (he : EncAttrs z seek vs b) (m : Nat) :
    ∀ {off : Nat} {s : BR}, At d seek ver off (b ++ rest) s →
    ∃ s', At d seek ver (off + b.length) rest s' ∧ readProps z (vs.length + m) s =
      (vs ++ (readProps z m s').1, (readProps z m s').2) := by
  induction he with
  | nil => intro off s h; exact ⟨s, by simpa using h, by simp⟩
  | @cons v vs b bs hv _ ih =>
    intro off s h
    rw [List.append_assoc] at h
    obtain ⟨h1, h2⟩ := readProp_spec z hv h
    obtain ⟨s', h3, h4⟩ := ih h2
    refine ⟨s', by simpa [Nat.add_assoc] using h3, ?_⟩
    rw [List.length_cons, show vs.length + 1 + m = (vs.length + m) + 1 by omega]
    simp only [readProps, h.err, h1, h4, List.cons_append]

theorem readRoots_prefix (z : Zlib) {d : Bytes} {seek : Bool} {ver : Nat} {rest : Bytes}
    (ns : List Node) : ∀ (fuel start : Nat) (b : Bytes) (s : BR),
    EncNodes z seek (fieldWidth ver) start ns b → b.length + 2 ≤ fuel →
    At d seek ver start (b ++ rest) s →
    ∃ s' f', fuel ≤ f' + b.length ∧ At d seek ver (start + b.length) rest s' ∧
      readRoots z fuel s = (readRoots z f' s').map fun r => (ns ++ r.1, r.2) := by
  induction ns with
  | nil =>
    intro fuel start b s he hf h
    cases he
    refine ⟨s, fuel, by simp, by simpa using h, ?_⟩
    cases readRoots z fuel s <;> simp
  | cons n ns ih =>
    intro fuel start b s he hf h
    cases he with
    | cons _ _ _ b1 bs _ hn hns hout =>
      subst hout
      simp only [List.append_assoc, List.length_append] at h hf
      have hpos : 1 ≤ b1.length := by
        cases hn with
        | mk _ stop name attrs children props kids term _ _ _ _ _ _ _ _ hb =>
          subst hb
          simp only [List.length_append, List.length_cons]
          omega
      match fuel, hf with
      | f + 1, hf =>
        obtain ⟨s1, e1, a1⟩ := (readNode_spec z f).1 start n b1 _ s hn (by omega) h
        obtain ⟨s2, f2, k0, k2, k3⟩ := ih f _ bs s1 hns (by omega) a1
        refine ⟨s2, f2, by rw [List.length_append]; omega,
          by simpa [Nat.add_assoc] using k2, ?_⟩
        conv_lhs => unfold readRoots
        simp only [h.err, e1, k3]
        cases readRoots z f2 s2 <;> simp

/-- The start of a record that announces `nprop` attributes and an end at `stop`. -/
def recordStart (w stop nprop propsz : Nat) (name : Bytes) : Bytes :=
  leBytes w stop ++ (leBytes w nprop ++ (leBytes w propsz ++ (UInt8.ofNat name.length :: name)))

/-- A file whose last record is cut in the middle of its attributes: some complete attributes, the
type letter of one more number, and `cut`, less than the number's bytes. `nodes` are the complete
records before. -/
structure CutFile (z : Zlib) (seek : Bool) (version : Nat) (nodes : List Node) (name : Bytes)
    (attrs : List Value) (ty : NumTy) (cut out : Bytes) : Prop where
  ex : ∃ u body props : Bytes, ∃ stop nprop propsz : Nat,
    version < 2 ^ 32 ∧ u.length = 2 ∧ EncNodes z seek (fieldWidth version) 27 nodes body ∧
    EncAttrs z seek attrs props ∧ attrs.length < nprop ∧ 2 * nprop ≤ propsz ∧ 0 < stop ∧
    name.length < 256 ∧ OffsetOK (fieldWidth version) stop ∧
    OffsetOK (fieldWidth version) propsz ∧
    out = (b! "Kaydara FBX Binary  " ++ [0]) ++ (u ++ (leBytes 4 version ++ (body ++
      (recordStart (fieldWidth version) stop nprop propsz name ++
        (props ++ (scalarCode ty :: cut))))))

theorem cutFile_read (z : Zlib) (seek : Bool) (version : Nat) (nodes : List Node) (name : Bytes)
    (attrs : List Value) (ty : NumTy) (cut out : Bytes)
    (h : CutFile z seek version nodes name attrs ty cut out) (hcut : cut.length < ty.width) :
    (cut = [] → parse z seek out =
      some (.ok (.mk b! "_FBX_ROOT" [] (nodes ++ [.mk name (attrs ++ [.num ty 0]) []])))) ∧
    (cut ≠ [] → parse z seek out = some .error) := by
  obtain ⟨u, body, props, stop, nprop, propsz, hver, hu, hbody, hprops, hn, hn2, hstop, hname,
    hso, hpo, hout⟩ := h.ex
  rw [← show magic = b! "Kaydara FBX Binary  " ++ [0] from rfl] at hout
  have hm : magic.length = 21 := by decide
  have hwb : 256 ^ fieldWidth version ≤ 18446744073709551616 := by
    unfold fieldWidth; split <;> decide
  have hno : OffsetOK (fieldWidth version) nprop := hpo.mono (by omega)
  have hpb : propsz < 18446744073709551616 := by
    rcases hpo with h | ⟨_, h⟩ <;> omega
  have a0 : At out seek 0 0 (magic ++ (u ++ (leBytes 4 version ++ (body ++
      (recordStart (fieldWidth version) stop nprop propsz name ++
        (props ++ (scalarCode ty :: cut)))))))
      { data := out, seek := seek, real := 0, pos := 0, version := 0, err := none } :=
    ⟨rfl, rfl, rfl, rfl, rfl, rfl, Nat.zero_le _, by simpa using hout⟩
  obtain ⟨h1, a1⟩ := a0.readString 21 hm
  have a2 := (a1.read 2 hu).2
  rw [← readLE_state] at a2
  obtain ⟨h3, a3⟩ := a2.readLE (by omega)
  unfold parse
  simp only [h1, h3]
  rw [if_neg (by simp)]
  generalize ((BR.readString ⟨out, seek, 0, 0, 0, none⟩ 21).2.readLE 2).2.readLE 4 = r at *
  obtain ⟨v, s⟩ := r
  simp only at *
  have a4 := At.mk (s := { s with version := version }) a3.data a3.seek rfl a3.real a3.pos a3.err
    a3.le a3.rest
  have hlen : body.length + 27 < out.length := by
    rw [hout]
    simp only [List.length_append, List.length_cons, hm, hu, leBytes_length]
    omega
  obtain ⟨s1, f1, hf, a5, e⟩ := readRoots_prefix z nodes (out.length + 5) _ body _ hbody
    (by omega) a4
  rw [e]
  simp only [recordStart, List.append_assoc, List.cons_append] at a5
  obtain ⟨g1, b1⟩ := a5.readField hso
  obtain ⟨g2, b2⟩ := b1.readField hno
  obtain ⟨g3, b3⟩ := b2.readField hpo
  obtain ⟨g4, b4⟩ := b3.readByte
  have hnl : (UInt8.ofNat name.length).toNat = name.length := by
    simp only [UInt8.toNat_ofNat']; omega
  rw [hnl] at g4
  obtain ⟨g5, b5⟩ := b4.readString name.length rfl
  obtain ⟨s6, b6, g6⟩ := readProps_prefix z hprops (nprop - attrs.length) b5
  rw [show attrs.length + (nprop - attrs.length) = nprop by omega] at g6
  obtain ⟨m, hm'⟩ : ∃ m, nprop - attrs.length = m + 1 := ⟨nprop - attrs.length - 1, by omega⟩
  rw [hm'] at g6
  obtain ⟨g7, b7⟩ := b6.readByte
  -- the number is not complete
  have hcl : (s6.readLE 1).2.data.length - (s6.readLE 1).2.real = cut.length := by
    have := congrArg List.length b7.rest
    rw [b7.data, b7.real]
    simpa using this
  have hd : (s6.readLE 1).2.real ≤ (s6.readLE 1).2.data.length := by
    rw [b7.data, b7.real]; exact b7.le
  have hread : ∀ t : BR, t.err = none → t.data.length - t.real = cut.length →
      t.real ≤ t.data.length → t.readLE ty.width = (0, { t with
        real := t.real + cut.length, pos := t.pos + cut.length,
        err := some (if cut.length = 0 then .eof else .other) }) := by
    intro t q1 q2 q3
    unfold BR.readLE BR.read
    rw [q1]
    simp only
    rw [if_neg (by omega), if_neg (by omega)]
    simp only [q2]
  replace hread := hread _ b7.err hcl hd
  have hprop : readProp z s6 = (.num ty 0, { (s6.readLE 1).2 with
      real := (s6.readLE 1).2.real + cut.length, pos := (s6.readLE 1).2.pos + cut.length,
      err := some (if cut.length = 0 then .eof else .other) }) := by
    unfold readProp
    simp only [g7, scalarTy_code, hread]
  have hprops' : ∀ (k : Nat) (t : BR) (e : Err), t.err = some e → readProps z k t = ([], t) := by
    intro k t e ht
    cases k <;> simp [readProps, ht]
  have hps : readProps z (m + 1) s6 = ([.num ty 0], { (s6.readLE 1).2 with
      real := (s6.readLE 1).2.real + cut.length, pos := (s6.readLE 1).2.pos + cut.length,
      err := some (if cut.length = 0 then .eof else .other) }) := by
    simp only [readProps, b6.err, hprop]
    rw [hprops' _ _ _ rfl]
  generalize hT : ({ (s6.readLE 1).2 with
      real := (s6.readLE 1).2.real + cut.length, pos := (s6.readLE 1).2.pos + cut.length,
      err := some (if cut.length = 0 then .eof else .other) } : BR) = T at hps
  have hTe : T.err = some (if cut.length = 0 then .eof else .other) := by rw [← hT]
  rw [hps] at g6
  obtain ⟨f2, rfl⟩ : ∃ f2, f1 = f2 + 3 := ⟨f1 - 3, by omega⟩
  have hnode : readNode z (f2 + 2) s1 = if cut.length = 0 then
      some (some (.mk name (attrs ++ [.num ty 0]) []), T) else some (none, T) := by
    unfold readNode
    simp only [g1, g2, g3, g4, g5]
    rw [if_neg (by rw [u64_ofNat _ (by omega), u64_ofNat _ (by omega)]; omega), if_neg (by omega)]
    simp only [Int.toNat_natCast, g6, hTe]
    by_cases hc : cut.length = 0
    · simp only [hc, if_true]
      rw [if_neg (by simp)]
      unfold readChildren
      rw [if_neg (by rw [hTe]; simp)]
      simp only [hTe, hc, if_true]
      rw [if_neg (by simp)]
    · simp only [hc, if_false]
      simp
  have hroots : readRoots z (f2 + 3) s1 = if cut.length = 0 then
      some ([.mk name (attrs ++ [.num ty 0]) []], T) else some ([], T) := by
    unfold readRoots
    simp only [a5.err, hnode]
    by_cases hc : cut.length = 0
    · simp only [hc, if_true]
      unfold readRoots
      simp only [hTe, hc, if_true]
      rfl
    · simp only [hc, if_false]
      unfold readRoots
      simp only [hTe, hc, if_false]
      rfl
  rw [hroots]
  constructor
  · rintro rfl
    simp [hTe]
  · intro hne
    have hc : cut.length ≠ 0 := by simpa using hne
    simp [hTe, hc]

/-- C77 is false: a file cut just behind the type letter of a number is accepted, and the number
that is missing comes out as 0, whatever stands before it. -/
theorem parse_truncated_false (z : Zlib) (seek : Bool) (version : Nat) (nodes : List Node)
    (name : Bytes) (attrs : List Value) (ty : NumTy) (out : Bytes)
    (h : CutFile z seek version nodes name attrs ty [] out) :
    parse z seek out =
      some (.ok (.mk b! "_FBX_ROOT" [] (nodes ++ [.mk name (attrs ++ [.num ty 0]) []]))) :=
  (cutFile_read z seek version nodes name attrs ty [] out h (by cases ty <;> decide)).1 rfl

/-- C77, a part that holds: a file cut inside the bytes of a number of a top-level record is
rejected. Not covered: cuts elsewhere, some of which are accepted (`parse_truncated_false`). -/
theorem parse_truncated_partial (z : Zlib) (seek : Bool) (version : Nat) (nodes : List Node)
    (name : Bytes) (attrs : List Value) (ty : NumTy) (cut out : Bytes)
    (h : CutFile z seek version nodes name attrs ty cut out) (h0 : cut ≠ [])
    (h1 : cut.length < ty.width) : parse z seek out = some .error :=
  (cutFile_read z seek version nodes name attrs ty cut out h h1).2 h0

/-- A file with one record of one `int32`, cut behind the letter. -/
def cutSample (cut : Bytes) : Bytes :=
  magic ++ ([26, 0] ++ (leBytes 4 7400 ++ ([] ++
    (recordStart 4 46 1 5 b! "A" ++ ([] ++ (73 :: cut))))))

example (z : Zlib) (seek : Bool) (cut : Bytes) :
    CutFile z seek 7400 [] b! "A" [] .i32 cut (cutSample cut) :=
  ⟨[26, 0], [], [], 46, 1, 5, by decide, rfl, .nil _, .nil, by decide, by decide, by decide,
    by decide, .inl (by decide), .inl (by decide), rfl⟩

end Verif.Fbx
