import Verif.Gltf.Anim
import Mathlib.Data.List.Nodup

/-!
C46: the layout of morph tracks (converter/glbanim.go:184-251).
-/

namespace Verif.Gltf

open Verif.Mqo (Str)

variable {F : Type}

theorem mem_of_lookup {α β : Type} [BEq α] [LawfulBEq α] (l : List (α × β)) (a : α) (b : β) (h : l.lookup a = some b) :
    (a, b) ∈ l := by
  induction l with
  | nil => simp at h
  | cons p l ih =>
    rw [List.lookup_cons] at h
    split at h
    · rename_i e
      have : a = p.1 := by simpa using e
      have h' := Option.some.inj h
      subst this h'
      simp
    · simp [ih h]

theorem findTarget_mem (nodes : List MeshNode) (name : Str) (t : Nat × Nat × Nat)
    (h : findTarget (morphTargets nodes) name = some t) :
    ∃ n ∈ nodes, n.1 = t.1 ∧ n.2[t.2.1]? = some name ∧ t.2.2 = n.2.length := by
  have := mem_of_lookup _ _ _ h
  rw [List.mem_reverse, morphTargets, List.mem_flatMap] at this
  obtain ⟨n, hn, hm⟩ := this
  obtain ⟨x, hz, e⟩ := List.mem_map.mp hm
  clear hm
  rw [List.mem_zipIdx_iff_getElem?] at hz
  obtain ⟨t1, t2, t3⟩ := t
  simp only [Prod.mk.injEq] at e
  obtain ⟨e1, e2, e3, e4⟩ := e
  subst e1 e2 e3 e4
  exact ⟨n, hn, rfl, hz, rfl⟩

theorem slot_inj {n a b i j : Nat} (hi : i < n) (hj : j < n) (h : a * n + i = b * n + j) : a = b ∧ i = j := by
  have e1 : (a * n + i) % n = i := by rw [Nat.mul_comm, Nat.mul_add_mod, Nat.mod_eq_of_lt hi]
  have e2 : (b * n + j) % n = j := by rw [Nat.mul_comm, Nat.mul_add_mod, Nat.mod_eq_of_lt hj]
  have hij : i = j := by rw [← e1, ← e2, h]
  subst hij
  have : a * n = b * n := by omega
  exact ⟨Nat.eq_of_mul_eq_mul_right (by omega) this, rfl⟩

theorem slot_lt {n count k i : Nat} (hk : k < count) (hi : i < n) : k * n + i < n * count := by
  calc k * n + i < k * n + n := by omega
    _ = (k + 1) * n := by rw [Nat.succ_mul]
    _ ≤ count * n := Nat.mul_le_mul_right n hk
    _ = n * count := Nat.mul_comm ..

theorem storeWeights_spec (q : F → UInt8) (n i : Nat) (hi : i < n) (count : Nat) (vs : List F) :
    ∀ (f : Nat) (l : List UInt8), l.length = n * count → f + vs.length ≤ count →
    ∃ l', storeWeights q n i f vs l = some l' ∧ l'.length = n * count ∧
      (∀ (k : Nat) (w : F), vs[k]? = some w → l'[(f + k) * n + i]? = some (q w)) ∧
      ∀ k j, j < n → (j ≠ i ∨ k < f) → l'[k * n + j]? = l[k * n + j]? := by
  induction vs with
  | nil => intro f l hl _; exact ⟨l, rfl, hl, by simp, fun _ _ _ _ => rfl⟩
  | cons v vs ih =>
    intro f l hl hf
    simp only [List.length_cons] at hf
    have hlt : f * n + i < l.length := by rw [hl]; exact slot_lt (by omega) hi
    obtain ⟨l', e, h1, h2, h3⟩ := ih (f + 1) (l.set (f * n + i) (q v)) (by simpa using hl) (by omega)
    refine ⟨l', by rw [storeWeights, if_pos hlt]; exact e, h1, ?_, ?_⟩
    · intro k w hw
      cases k with
      | zero =>
        simp only [List.getElem?_cons_zero, Option.some.injEq] at hw
        subst hw
        rw [Nat.add_zero, h3 f i hi (.inr (by omega)), List.getElem?_set_self hlt]
      | succ k =>
        have := h2 k w (by simpa using hw)
        rw [show f + (k + 1) = f + 1 + k by omega]
        exact this
    · intro k j hj hor
      rw [h3 k j hj (by omega)]
      rw [List.getElem?_set_ne]
      intro e
      have := slot_inj hi hj e
      omega

/-- C46: the weights of a node with the morph targets `names`: as many as keys times targets; the weights
of the channel of target `i` with as many keys as the first channel are at `k * n + i`; everything else is
zero. `ms` is the list of the channels of that node in any order. -/
theorem nodeWeights_spec (q : F → UInt8) (nodes : List MeshNode) (hn : (nodes.map (·.1)).Nodup)
    (ni : Nat) (names : List Str) (hni : (ni, names) ∈ nodes) (m : MorphTrack F) (ms : List (MorphTrack F))
    (hnode : ∀ x ∈ m :: ms, ∃ t, findTarget (morphTargets nodes) x.target = some t ∧ t.1 = ni)
    (hd : ((m :: ms).map (·.target)).Nodup)
    (hw : ∀ x ∈ m :: ms, x.weights.length = x.frames.length) :
    ∃ l, nodeWeights q (morphTargets nodes) (m :: ms) = some (m.frames, l) ∧
      l.length = names.length * m.frames.length ∧
      (∀ x ∈ m :: ms, x.frames.length = m.frames.length → ∃ i, names[i]? = some x.target ∧
        ∀ (k : Nat) (w : F), x.weights[k]? = some w → l[k * names.length + i]? = some (q w)) ∧
      (∀ (k i : Nat) (name : Str), k < m.frames.length → names[i]? = some name →
        (∀ x ∈ m :: ms, x.frames.length = m.frames.length → x.target ≠ name) →
        l[k * names.length + i]? = some 0) := by
  -- the entry of a channel of this node
  have hent : ∀ x ∈ m :: ms, ∃ i, findTarget (morphTargets nodes) x.target = some (ni, i, names.length) ∧
      names[i]? = some x.target := by
    intro x hx
    obtain ⟨⟨t1, t2, t3⟩, ht, he⟩ := hnode x hx
    obtain ⟨n, h1, h2, h3, h4⟩ := findTarget_mem nodes x.target _ ht
    simp only at he h2 h3 h4
    subst he
    have : n = (n.1, names) := by
      have := List.inj_on_of_nodup_map hn h1 (h2 ▸ hni) (by simp)
      exact this
    rw [this] at h3 h4
    simp only at h3 h4
    exact ⟨t2, by rw [ht, h4], h3⟩
  obtain ⟨i0, hi0, _⟩ := hent m (by simp)
  have key : ∀ (xs : List (MorphTrack F)) (l : List UInt8), (∀ x ∈ xs, x ∈ m :: ms) → (xs.map (·.target)).Nodup →
      l.length = names.length * m.frames.length →
      ∃ l', storeTracks q (morphTargets nodes) m.frames.length names.length xs l = some l' ∧
        l'.length = names.length * m.frames.length ∧
        (∀ x ∈ xs, x.frames.length = m.frames.length → ∃ i, names[i]? = some x.target ∧
          ∀ (k : Nat) (w : F), x.weights[k]? = some w → l'[k * names.length + i]? = some (q w)) ∧
        (∀ (k i : Nat) (name : Str), names[i]? = some name →
          (∀ x ∈ xs, x.frames.length = m.frames.length → x.target ≠ name) →
          l'[k * names.length + i]? = l[k * names.length + i]?) := by
    intro xs
    induction xs with
    | nil => intro l _ _ hl; exact ⟨l, rfl, hl, by simp, fun _ _ _ _ _ => rfl⟩
    | cons x xs ih =>
      intro l hin hd hl
      rw [List.map_cons, List.nodup_cons] at hd
      rw [storeTracks]
      split
      · rename_i hne
        obtain ⟨l', e, h1, h2, h3⟩ := ih l (fun y hy => hin y (by simp [hy])) hd.2 hl
        refine ⟨l', e, h1, ?_, ?_⟩
        · intro y hy hyl
          rcases List.mem_cons.mp hy with rfl | hy
          · exact absurd hyl hne
          · exact h2 y hy hyl
        · intro k i name hi hx
          exact h3 k i name hi fun y hy => hx y (by simp [hy])
      · rename_i heq
        have heq : x.frames.length = m.frames.length := by simpa using heq
        obtain ⟨i, hf, hname⟩ := hent x (hin x (by simp))
        have hil : i < names.length := (List.getElem?_eq_some_iff.mp hname).1
        rw [hf]
        obtain ⟨l1, e1, a1, a2, a3⟩ := storeWeights_spec q names.length i hil m.frames.length x.weights 0 l hl
          (by rw [hw x (hin x (by simp))]; omega)
        simp only [e1]
        obtain ⟨l', e, h1, h2, h3⟩ := ih l1 (fun y hy => hin y (by simp [hy])) hd.2 a1
        refine ⟨l', e, h1, ?_, ?_⟩
        · intro y hy hyl
          rcases List.mem_cons.mp hy with rfl | hy
          · refine ⟨i, hname, ?_⟩
            intro k w hwk
            rw [h3 k i y.target hname fun z hz _ e => hd.1 (List.mem_map.mpr ⟨z, hz, e⟩)]
            have := a2 k w hwk
            rwa [Nat.zero_add] at this
          · exact h2 y hy hyl
        · intro k j name hj hx
          rw [h3 k j name hj fun y hy => hx y (by simp [hy])]
          apply a3 k j (List.getElem?_eq_some_iff.mp hj).1
          left
          rintro rfl
          rw [hname] at hj
          exact hx x (by simp) heq (Option.some.inj hj)
  obtain ⟨l, e, h1, h2, h3⟩ := key (m :: ms) (List.replicate (names.length * m.frames.length) 0)
    (fun _ h => h) hd (by simp)
  refine ⟨l, ?_, h1, h2, ?_⟩
  · rw [nodeWeights, hi0]
    simp only [e, Option.map_some]
  · intro k i name hk hi hx
    rw [h3 k i name hi hx]
    have : k * names.length + i < names.length * m.frames.length :=
      slot_lt hk (List.getElem?_eq_some_iff.mp hi).1
    simp [this]

/-- Two channels of a node with three targets, and one of another node. -/
example : nodeWeights (F := Nat) (fun w => UInt8.ofNat w)
    (morphTargets [(4, [['a'], ['b'], ['c']]), (7, [['d']])])
    [⟨['c'], [0, 10], [5, 6]⟩, ⟨['a'], [0, 10], [7, 8]⟩] = some ([0, 10], [7, 0, 5, 8, 0, 6]) := by decide

/-- C89 is false of the code: a channel with as many keys as the first one, but at other times, is exported
with the times of the first one; a channel with another number of keys is exported as zero. -/
theorem nodeWeights_times_false :
    nodeWeights (F := Nat) (fun w => UInt8.ofNat w) (morphTargets [(4, [['a'], ['b']])])
      [⟨['a'], [0, 10], [1, 2]⟩, ⟨['b'], [5, 90], [3, 4]⟩] = some ([0, 10], [1, 3, 2, 4]) ∧
    nodeWeights (F := Nat) (fun w => UInt8.ofNat w) (morphTargets [(4, [['a'], ['b']])])
      [⟨['a'], [0, 10], [1, 2]⟩, ⟨['b'], [5], [3]⟩] = some ([0, 10], [1, 0, 2, 0]) ∧
    nodeWeights (F := Nat) (fun w => UInt8.ofNat w) (morphTargets [(4, [['a'], ['b']])])
      [⟨['b'], [5], [3]⟩, ⟨['a'], [0, 10], [1, 2]⟩] = some ([5], [0, 3]) := by decide

end Verif.Gltf
