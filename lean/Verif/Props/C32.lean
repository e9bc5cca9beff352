import Verif.Props.C30
import Verif.Props.C01
import Mathlib.Data.List.Induction

/-! # C32: a named entry reads back what was written

The comment on `GetNamedFile` (base/serialize.go:34-35) promises the most recent entry; the loop
returns at the first one. -/

namespace Golearn

/-- Write a sequence of (key, contents) to an archive. -/
def writeAll (ar : Archive) (ws : List (String × Payload)) : Archive :=
  ws.foldl (fun ar w => writeForKey ar w.1 w.2) ar

theorem writeAll_eq (ar : Archive) (ws : List (String × Payload)) : writeAll ar ws = ar ++ ws := by
  induction ws using List.reverseRecOn with
  | nil => simp [writeAll]
  | append_singleton ws w ih =>
    simp only [writeAll, List.foldl_append, List.foldl_cons, List.foldl_nil, writeForKey] at ih ⊢
    rw [ih]; simp

theorem getNamedFile_eq (ar : Archive) (k : String) :
    getNamedFile ar k = match ar.find? fun p => p.1 == k with
      | some p => Res.ok p.2
      | none => Res.err := by
  induction ar with
  | nil => rfl
  | cons p ps ih =>
    obtain ⟨n, b⟩ := p
    unfold getNamedFile
    by_cases h : n = k
    · simp [h]
    · have hb : (n == k) = false := by simp [h]
      rw [List.find?_cons_of_neg (by simp [h]), if_neg h, ih]

theorem getNamedFile_append_right {ar br : Archive} {k : String} (h : ∀ p ∈ ar, p.1 ≠ k) :
    getNamedFile (ar ++ br) k = getNamedFile br k := by
  induction ar with
  | nil => rfl
  | cons p ps ih =>
    obtain ⟨n, b⟩ := p
    have : n ≠ k := h (n, b) (by simp)
    simp only [List.cons_append, getNamedFile, this, if_false]
    exact ih fun q hq => h q (by simp [hq])

theorem getNamedFile_mem_append {ar br : Archive} {k : String} {v : Payload}
    (h : getNamedFile ar k = Res.ok v) : getNamedFile (ar ++ br) k = Res.ok v := by
  induction ar with
  | nil => cases h
  | cons p ps ih =>
    obtain ⟨n, b⟩ := p
    simp only [List.cons_append, getNamedFile] at h ⊢
    split
    · rw [if_pos ‹_›] at h; exact h
    · rw [if_neg ‹_›] at h; exact ih h

/-- In a classifier file (which starts with its own two entries), after any sequence of writes, a
key not used by those two reads back the *first* value written under it, and is an error if nothing
was written under it. -/
theorem C32_first_write_partial (metadata : Json) (ws : List (String × Payload)) (k : String)
    (hk : k ≠ "CLS_MANIFEST" ∧ k ≠ "METADATA") :
    getNamedFile (writeAll (classifierStub metadata) ws) k = match ws.find? fun p => p.1 == k with
      | some p => Res.ok p.2
      | none => Res.err := by
  rw [writeAll_eq, getNamedFile_append_right, getNamedFile_eq]
  intro p hp
  simp only [classifierStub, tarPrefix, List.mem_cons, List.not_mem_nil, or_false] at hp
  rcases hp with rfl | rfl
  · exact hk.1.symm
  · exact hk.2.symm

/-- With pairwise different keys, every key reads back exactly what was written under it, and a key
that was not written is an error. -/
theorem C32_distinct_keys_partial (metadata : Json) (ws : List (String × Payload))
    (hd : (ws.map Prod.fst).Nodup) (k : String) (hk : k ≠ "CLS_MANIFEST" ∧ k ≠ "METADATA") :
    (∀ v, (k, v) ∈ ws → getNamedFile (writeAll (classifierStub metadata) ws) k = Res.ok v) ∧
    ((∀ v, (k, v) ∉ ws) → getNamedFile (writeAll (classifierStub metadata) ws) k = Res.err) := by
  rw [C32_first_write_partial metadata ws k hk]
  constructor
  · intro v hv
    have : ws.find? (fun p => p.1 == k) = some (k, v) := by
      induction ws with
      | nil => simp at hv
      | cons p ps ih =>
        rw [List.map_cons, List.nodup_cons] at hd
        by_cases hp : p.1 = k
        · have : p = (k, v) := by
            rcases List.mem_cons.1 hv with e | e
            · exact e.symm
            · exact absurd (List.mem_map.2 ⟨_, e, rfl⟩) (hp ▸ hd.1)
          simp [this]
        · rw [List.find?_cons_of_neg (by simpa using hp)]
          refine ih hd.2 ?_
          rcases List.mem_cons.1 hv with e | e
          · exact absurd (by rw [← e]) hp
          · exact e
    rw [this]
  · intro h
    have : ws.find? (fun p => p.1 == k) = none := by
      rw [List.find?_eq_none]
      rintro ⟨k', v⟩ hp he
      exact h v (by simpa [← (beq_iff_eq.1 he)] using hp)
    rw [this]

/-- The full property: reading returns the value most recently written under the key. -/
def LastWriteWins : Prop :=
  ∀ (metadata : Json) (ws : List (String × Payload)) (k : String) (v : Payload),
    k ≠ "CLS_MANIFEST" → k ≠ "METADATA" →
    getNamedFile (writeAll (classifierStub metadata) (ws ++ [(k, v)])) k = Res.ok v

/-- It is false of the code. -/
theorem C32_last_write_fails : ¬ LastWriteWins := by
  intro H
  have := H .null [("k", .bytes [1#8])] "k" (.bytes [2#8]) (by decide) (by decide)
  simp [writeAll, writeForKey, classifierStub, tarPrefix, getNamedFile] at this

theorem tarPrefix_inj (pre a b : String) (h : tarPrefix pre a = tarPrefix pre b) : a = b := by
  unfold tarPrefix at h
  split at h
  · exact h
  · rw [String.ext_iff] at h ⊢
    simpa using h

theorem repr_inj {a b : Nat} (h : Nat.repr a = Nat.repr b) : a = b := by
  have h' := congrArg String.toList h
  rw [Nat.toList_repr, Nat.toList_repr] at h'
  have := congrArg (fun l => Nat.ofDigitChars 10 l 0) h'
  simpa using this

theorem repr_ne_count (i : Nat) : Nat.repr i ≠ "ATTR_COUNT" := by
  intro h
  have h' := congrArg String.toList h
  rw [Nat.toList_repr] at h'
  have : 'A' ∈ Nat.toDigits 10 i := by rw [h']; decide
  simpa using Nat.isDigit_of_mem_toDigits (by decide) (by decide) this

theorem writeAttributes_go (nilVals : Bool) (key : String) (attrs : List AttrBody) (ar : Archive) (i : Nat) :
    writeAttributesForKey.go nilVals key ar attrs i =
      ar ++ attrs.mapIdx fun j a => (tarPrefix key (Nat.repr (i + j)), Payload.json (attrToJson nilVals a)) := by
  induction attrs generalizing ar i with
  | nil => simp [writeAttributesForKey.go]
  | cons a as ih =>
    rw [writeAttributesForKey.go, ih, writeForKey, List.mapIdx_cons, List.append_assoc]
    simp only [List.singleton_append, Nat.add_zero]
    congr 3
    funext j a
    rw [Nat.add_assoc, Nat.add_comm 1 j]

theorem getNamedFile_mapIdx (nilVals : Bool) (key : String) (attrs : List AttrBody) (n : Nat) (i : Nat)
    (h : i < attrs.length) :
    getNamedFile (attrs.mapIdx fun j a =>
      (tarPrefix key (Nat.repr (n + j)), Payload.json (attrToJson nilVals a)))
      (tarPrefix key (Nat.repr (n + i))) = Res.ok (.json (attrToJson nilVals attrs[i])) := by
  induction attrs generalizing n i with
  | nil => simp at h
  | cons a as ih =>
    rw [List.mapIdx_cons]
    cases i with
    | zero => simp [getNamedFile]
    | succ i =>
      have hne : tarPrefix key (Nat.repr (n + 0)) ≠ tarPrefix key (Nat.repr (n + (i + 1))) := by
        intro e
        have := repr_inj (tarPrefix_inj _ _ _ e)
        omega
      rw [getNamedFile, if_neg hne]
      have := ih (n + 1) i (by simpa using h)
      simp only [List.getElem_cons_succ]
      rw [← this]
      congr 2
      · funext j a
        rw [Nat.add_assoc, Nat.add_comm 1 j]
      · rw [Nat.add_assoc, Nat.add_comm 1 i]

/-- A list of attributes written under a key, whatever was in the archive under other keys and
whatever is written afterwards, is read back (unless it contains a categorical attribute with a `nil`
slice of values, see C30). -/
theorem C32_attributes_for_key_partial (nilVals : Bool) (viaFloat : Int → Int) (ar : Archive) (key : String)
    (attrs : List AttrBody) (later : List (String × Payload)) (hlen : attrs.length < 2 ^ 64)
    (hfree : ∀ p ∈ ar, p.1 ≠ tarPrefix key "ATTR_COUNT" ∧ ∀ i : Nat, p.1 ≠ tarPrefix key (Nat.repr i))
    (hnil : ∀ b ∈ attrs, ∀ n, ¬ (b = .cat n [] ∧ nilVals = true))
    (hk : ∀ n k, AttrBody.float n k ∈ attrs → viaFloat k = k) :
    getAttributesForKey viaFloat (writeAttributesForKey nilVals ar key attrs ++ later) key = Res.ok attrs := by
  have hne : ∀ i : Nat, tarPrefix key "ATTR_COUNT" ≠ tarPrefix key (Nat.repr i) :=
    fun i e => repr_ne_count i (tarPrefix_inj _ _ _ e).symm
  have hcount : getU64ForKey (writeAttributesForKey nilVals ar key attrs ++ later) (tarPrefix key "ATTR_COUNT") =
      Res.ok (BitVec.ofNat 64 attrs.length) := by
    unfold getU64ForKey writeAttributesForKey
    rw [writeAttributes_go, writeU64ForKey, writeForKey, List.append_assoc, List.append_assoc,
      getNamedFile_append_right (fun p hp => (hfree p hp).1)]
    simp [getNamedFile, C01_unpack_pack]
  have hget : ∀ i (h : i < attrs.length), getAttributeForKey viaFloat
      (writeAttributesForKey nilVals ar key attrs ++ later) (tarPrefix key (Nat.repr i)) = Res.ok attrs[i] := by
    intro i h
    have := getNamedFile_mapIdx nilVals key attrs 0 i h
    simp only [Nat.zero_add] at this
    unfold getAttributeForKey writeAttributesForKey
    rw [writeAttributes_go, writeU64ForKey, writeForKey, List.append_assoc, List.append_assoc,
      getNamedFile_append_right (fun p hp => (hfree p hp).2 i)]
    simp only [Nat.zero_add, List.cons_append, List.nil_append, getNamedFile, hne i, if_false]
    rw [getNamedFile_mem_append this, Res.bind_ok]
    obtain ⟨b', e, _, _, e'⟩ := C30_attribute_roundtrip_partial viaFloat nilVals attrs[i]
      (hnil _ (List.getElem_mem h)) 0 0
    have hb := e' (fun n k hb => hk n k (hb ▸ List.getElem_mem h))
    rw [hb] at e
    exact e
  unfold getAttributesForKey
  rw [hcount, Res.bind_ok, BitVec.toNat_ofNat, Nat.mod_eq_of_lt hlen]
  have : ∀ k, k ≤ attrs.length → mapRes (fun i => getAttributeForKey viaFloat
      (writeAttributesForKey nilVals ar key attrs ++ later) (tarPrefix key (Nat.repr i)))
      ((List.range' k (attrs.length - k))) = Res.ok (attrs.drop k) := by
    intro k hkl
    induction hm : attrs.length - k generalizing k with
    | zero =>
      have : k = attrs.length := by omega
      subst this
      simp [mapRes]
    | succ m ih =>
      have hlt : k < attrs.length := by omega
      rw [List.range'_succ, mapRes, hget k hlt, Res.bind_ok, ih (k + 1) (by omega) (by omega),
        Res.bind_ok, ← List.drop_eq_getElem_cons hlt]
  have h0 := this 0 (Nat.zero_le _)
  rw [Nat.sub_zero, ← List.range_eq_range', List.drop_zero] at h0
  exact h0

/-- Three entries under different keys, and attributes under a fourth. -/
example : getNamedFile (writeAll (classifierStub .null)
    [("a", .bytes [1#8]), ("b", .bytes []), ("c/d", .bytes [3#8])]) "b" = Res.ok (.bytes []) :=
  (C32_distinct_keys_partial .null _ (by decide) "b" (by decide)).1 _ (by simp)

example : getAttributesForKey id (writeAttributesForKey true (classifierStub .null) "ATTRS"
    [.float "x" 2, .cat "c" ["p", "q"]] ++ [("Z", .bytes [])]) "ATTRS" =
    Res.ok [.float "x" 2, .cat "c" ["p", "q"]] := by
  apply C32_attributes_for_key_partial
  · decide
  · intro p hp
    simp only [classifierStub, List.mem_cons, List.not_mem_nil, or_false] at hp
    have key : ∀ i : Nat, tarPrefix "" "METADATA" ≠ tarPrefix "ATTRS" (Nat.repr i) ∧
        "CLS_MANIFEST" ≠ tarPrefix "ATTRS" (Nat.repr i) := by
      intro i
      constructor <;>
      · intro e
        have := congrArg (fun s => s.toList.take 1) e
        simp [tarPrefix] at this
    rcases hp with rfl | rfl
    · exact ⟨by decide, fun i => (key i).2⟩
    · exact ⟨by decide, fun i => (key i).1⟩
  · simp
  · simp

end Golearn
