import Verif.Proofs.Dbscan

/-! # C74: bit counts -/

namespace Golearn

/-- `BitCount` counts the one bits of a number of any size. -/
theorem C74_bit_count (n k : Nat) (h : n < 2 ^ k) : bitCount n = (List.range k).countP n.testBit := bitCount_eq h

example : (2 ^ 70 + 5 < 2 ^ 71) ∧ bitCount (2 ^ 70 + 5) = 3 := by decide +kernel

/-- `regionQuery` marks exactly the points within eps, and its bit count is their number. -/
theorem C74_region_query (rows : Nat) (near : Nat → Nat → Bool) (p : Nat) :
    (∀ x, (regionQuery rows near p 0).testBit x = true ↔ x < rows ∧ near p x = true) ∧
    bitCount (regionQuery rows near p 0) = (List.range rows).countP (near p) :=
  ⟨fun _ => region_bit, region_count rows near p⟩

example : bitCount (regionQuery 100 (fun p i => decide (p % 3 = i % 3)) 1 0) = 33 := by decide +kernel

end Golearn
