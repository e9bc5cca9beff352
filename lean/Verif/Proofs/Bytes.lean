import Verif.Model.Bytes

/-! # Lemmas about packing -/

namespace Golearn

theorem byteAt_eq (v : U64) (s : Nat) (hs : s + 8 ≤ 64) :
    byteAt v s = (v >>> s).setWidth 8 := by
  apply BitVec.eq_of_getLsbD_eq
  intro i hi
  have h255 : ∀ i : Nat, i < 8 → (0xFF#64).getLsbD i = true := by decide
  simp only [byteAt, BitVec.getLsbD_setWidth, BitVec.getLsbD_ushiftRight, BitVec.getLsbD_and,
    BitVec.getLsbD_shiftLeft]
  have h1 : s + i < 64 := by omega
  have h2 : ¬ (s + i < s) := by omega
  have h3 : s + i - s = i := by omega
  simp [h3, h255 i hi, h1, h2]

theorem unpack_bit (b0 b1 b2 b3 b4 b5 b6 b7 : Byte) (rest : Bytes) :
    ∃ w, unpackU64 (b0 :: b1 :: b2 :: b3 :: b4 :: b5 :: b6 :: b7 :: rest) = Res.ok w ∧
      ∀ s i, s < 8 → i < 8 →
        w.getLsbD (8 * s + i) = (([b0, b1, b2, b3, b4, b5, b6, b7] : Bytes).getD s 0).getLsbD i := by
  refine ⟨_, rfl, ?_⟩
  intro s i hs hi
  have : s = 0 ∨ s = 1 ∨ s = 2 ∨ s = 3 ∨ s = 4 ∨ s = 5 ∨ s = 6 ∨ s = 7 := by omega
  rcases this with h | h | h | h | h | h | h | h <;> subst h <;>
    have hb : i = 0 ∨ i = 1 ∨ i = 2 ∨ i = 3 ∨ i = 4 ∨ i = 5 ∨ i = 6 ∨ i = 7 := by omega
  all_goals
    rcases hb with h | h | h | h | h | h | h | h <;> subst h <;>
      simp [BitVec.getLsbD_setWidth, BitVec.getLsbD_shiftLeft]

/-- Packing yields eight bytes. -/
theorem packU64_length (v : U64) : (packU64 v).length = 8 := rfl

theorem byteSeqLoop_iff (a b : Bytes) (h : a.length = b.length) : byteSeqLoop a b = true ↔ a = b := by
  induction a generalizing b with
  | nil => cases b <;> simp_all [byteSeqLoop]
  | cons x xs ih =>
    cases b with
    | nil => simp at h
    | cons y ys =>
      simp only [List.length_cons, Nat.add_right_cancel_iff] at h
      by_cases hxy : x = y
      · simp [byteSeqLoop, hxy, ih ys h]
      · simp [byteSeqLoop, hxy]

end Golearn
