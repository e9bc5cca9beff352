import Verif.Model.Bytes
import Verif.Spec.Bytes
import Verif.Proofs.Bytes

/-! # C01: packing round-trips -/

namespace Golearn

/-- Unpacking a packed value gives it back. -/
theorem C01_unpack_pack (v : U64) : unpackU64 (packU64 v) = Res.ok v := by
  obtain ⟨w, hw, hbits⟩ := unpack_bit (byteAt v 0) (byteAt v 8) (byteAt v 16) (byteAt v 24)
    (byteAt v 32) (byteAt v 40) (byteAt v 48) (byteAt v 56) []
  rw [packU64, hw]
  congr 1
  apply BitVec.eq_of_getLsbD_eq
  intro k hk
  have hk' : k = 8 * (k / 8) + k % 8 := by omega
  rw [hk', hbits (k / 8) (k % 8) (by omega) (by omega)]
  have : k / 8 = 0 ∨ k / 8 = 1 ∨ k / 8 = 2 ∨ k / 8 = 3 ∨ k / 8 = 4 ∨ k / 8 = 5 ∨ k / 8 = 6 ∨
    k / 8 = 7 := by omega
  have hm : k % 8 < 8 := by omega
  rcases this with h | h | h | h | h | h | h | h <;> rw [h] <;>
    simp [byteAt_eq, BitVec.getLsbD_ushiftRight, hm]

/-- Packing an unpacked eight-byte slice gives the slice back. -/
theorem C01_pack_unpack (b : Bytes) (hb : b.length = 8) :
    ∃ v, unpackU64 b = Res.ok v ∧ packU64 v = b := by
  match b, hb with
  | [b0, b1, b2, b3, b4, b5, b6, b7], _ =>
    obtain ⟨w, hw, hbits⟩ := unpack_bit b0 b1 b2 b3 b4 b5 b6 b7 []
    refine ⟨w, hw, ?_⟩
    have key : ∀ s, s < 8 → byteAt w (8 * s) = ([b0, b1, b2, b3, b4, b5, b6, b7] : Bytes).getD s 0 := by
      intro s hs
      rw [byteAt_eq _ _ (by omega)]
      apply BitVec.eq_of_getLsbD_eq
      intro i hi
      rw [← hbits s i hs hi]
      simp [hi, BitVec.getLsbD_ushiftRight]
    have h0 := key 0 (by omega)
    have h1 := key 1 (by omega)
    have h2 := key 2 (by omega)
    have h3 := key 3 (by omega)
    have h4 := key 4 (by omega)
    have h5 := key 5 (by omega)
    have h6 := key 6 (by omega)
    have h7 := key 7 (by omega)
    simp at h0 h1 h2 h3 h4 h5 h6 h7
    simp [packU64, h0, h1, h2, h3, h4, h5, h6, h7]

/-- Packing is injective: different values have different representations. -/
theorem C01_pack_injective (v w : U64) (h : packU64 v = packU64 w) : v = w := by
  have hv := C01_unpack_pack v
  rw [h, C01_unpack_pack w] at hv
  injection hv with h1
  exact h1.symm

/-- The representation is little-endian base 256: the bytes' place value is the number. -/
theorem C01_pack_value (v : U64) : leValue (packU64 v) = v.toNat := by
  have h : ∀ s, s + 8 ≤ 64 → (byteAt v s).toNat = v.toNat / 2 ^ s % 256 := by
    intro s hs
    rw [byteAt_eq v s hs]
    simp [BitVec.toNat_setWidth, BitVec.toNat_ushiftRight, Nat.shiftRight_eq_div_pow]
  have hlt : v.toNat < 2 ^ 64 := v.isLt
  simp only [packU64, leValue, h _ (by omega : 0 + 8 ≤ 64), h _ (by omega : 8 + 8 ≤ 64),
    h _ (by omega : 16 + 8 ≤ 64), h _ (by omega : 24 + 8 ≤ 64), h _ (by omega : 32 + 8 ≤ 64),
    h _ (by omega : 40 + 8 ≤ 64), h _ (by omega : 48 + 8 ≤ 64), h _ (by omega : 56 + 8 ≤ 64)]
  omega

/-- Packing into a caller's buffer overwrites exactly its first eight bytes with the packed value. -/
theorem C01_pack_inline (v : U64) (buf : Bytes) (h : 8 ≤ buf.length) :
    packU64Inline v buf = Res.ok (packU64 v ++ buf.drop 8) := by
  match buf, h with
  | b0 :: b1 :: b2 :: b3 :: b4 :: b5 :: b6 :: b7 :: rest, _ =>
    simp [packU64Inline, packU64]

/-- A buffer that is too short is rejected, and so is unpacking from fewer than eight bytes. -/
theorem C01_short_rejected (v : U64) (buf : Bytes) (h : buf.length < 8) :
    packU64Inline v buf = Res.panic ∧ unpackU64 buf = Res.panic := by
  constructor
  · simp [packU64Inline, h]
  · unfold unpackU64
    split
    · simp at h; omega
    · rfl

/-- The float variants round-trip the 64-bit pattern. -/
theorem C01_float_roundtrip (bits : U64) :
    unpackFloatBits (packFloatBits bits) = Res.ok bits := C01_unpack_pack bits

/-- Byte-sequence comparison decides equality. -/
theorem C01_byteSeqEqual_iff (a b : Bytes) : byteSeqEqual a b = true ↔ a = b := by
  unfold byteSeqEqual
  by_cases h : a.length = b.length
  · simp [h, byteSeqLoop_iff a b h]
  · simp only [bne_iff_ne, ne_eq, h, not_false_eq_true, if_true, Bool.false_eq_true, false_iff]
    intro hab; exact h (by rw [hab])

-- the hypotheses are met by concrete data
example : ([1, 2, 3, 4, 5, 6, 7, 8] : Bytes).length = 8 := rfl
example : unpackU64 [1, 2, 0, 0, 0, 0, 0, 0] = Res.ok 513#64 := by decide
example : packU64 513#64 = [1, 2, 0, 0, 0, 0, 0, 0] := by decide

end Golearn
