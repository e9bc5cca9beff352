import Verif.Props.C60

/-! # C61: binary conversion of numbers marks non-zero values

The documentation (filters/binary.go:11-12 and 59) says that a number becomes 0 if it is 0 and 1 otherwise. The code tests for greater than
zero. -/

namespace Golearn

/-- The documented claim, for all bit patterns of a `float64`. -/
def MarksNonZero (fresh : Nat → Nat) (attrs : List Attr) (a n : Attr) : Prop :=
  ∀ v : U64, (Conv.binary fresh attrs).transform a n (packU64 v) = Res.ok (if f64NonZero v then [1#8] else [0#8])

/-- What the code does: a number is marked exactly if its sign is positive, it is not zero and it is a number (or positive infinity). -/
theorem C61_positive (fresh : Nat → Nat) (attrs : List Attr) (a n : Attr) (ha : a.isFloat = true) (v : U64) :
    (Conv.binary fresh attrs).transform a n (packU64 v) = Res.ok (if 0 < v.toNat ∧ v.toNat ≤ 0x7FF0000000000000 then [1#8] else [0#8]) := by
  obtain ⟨p, x⟩ := a
  cases x with
  | cat _ _ => simp [Attr.isFloat] at ha
  | bin _ => simp [Attr.isFloat] at ha
  | float nm pr =>
    unfold Conv.binary
    simp only [Conv.transformBinary]
    rw [C01_unpack_pack, Res.map_ok]
    simp only [f64Pos, Bool.and_eq_true, decide_eq_true_eq]

/-- The claim is false: minus one is not marked (nor is any negative number). -/
theorem C61_refuted (fresh : Nat → Nat) (attrs : List Attr) (a n : Attr) (ha : a.isFloat = true) :
    ¬ MarksNonZero fresh attrs a n ∧
    ∀ v : U64, v.msb = true → (Conv.binary fresh attrs).transform a n (packU64 v) = Res.ok [0#8] := by
  have h2 : ∀ v : U64, v.msb = true → (Conv.binary fresh attrs).transform a n (packU64 v) = Res.ok [0#8] := by
    intro v hv
    rw [C61_positive fresh attrs a n ha, if_neg]
    rintro ⟨_, h⟩
    rw [BitVec.msb_eq_decide, decide_eq_true_eq] at hv
    omega
  refine ⟨?_, h2⟩
  intro h
  have h1 := h 0xBFF0000000000000#64
  rw [h2 _ (by decide)] at h1
  revert h1
  decide

/-- For numbers that are not negative the claim holds. Missing: negative numbers, and patterns that are not a number. -/
theorem C61_partial (fresh : Nat → Nat) (attrs : List Attr) (a n : Attr) (ha : a.isFloat = true) (v : U64)
    (hv : v.toNat ≤ 0x7FF0000000000000) :
    (Conv.binary fresh attrs).transform a n (packU64 v) = Res.ok (if f64NonZero v then [1#8] else [0#8]) := by
  rw [C61_positive fresh attrs a n ha]
  congr 1
  by_cases h0 : v = 0#64
  · subst h0; rfl
  · have h1 : 0 < v.toNat := by
      rcases Nat.eq_zero_or_pos v.toNat with h | h
      · exact absurd (BitVec.eq_of_toNat_eq h) h0
      · exact h
    have h2 : v ≠ 0x8000000000000000#64 := by
      rintro rfl
      revert hv
      decide
    rw [if_pos ⟨h1, hv⟩, if_pos]
    simp [f64NonZero, h0, h2]

/-- The number one, and zero. -/
example : let a : Attr := ⟨0, .float "x" 2⟩
    let f := Conv.binary (fun i => 10 + i) [a]
    (outputs f.attrs a).map (fun n => (f.transform a n (packU64 f64One), f.transform a n (packU64 0#64))) =
      [(.ok [1#8], .ok [0#8])] := by decide +kernel

/-- The float filter on a stored 0/1 byte gives the number zero or one, and either filter leaves columns alone that already have its type. -/
theorem C61_other_columns (fresh : Nat → Nat) (attrs : List Attr) (n : Attr) :
    (∀ a : Attr, a.isBin = true → ∀ b : Bool, (Conv.float fresh attrs).transform a n [if b then 1#8 else 0#8] =
      Res.ok (packU64 (if b then f64One else 0#64))) ∧
    (∀ a : Attr, a.isBin = true → ∀ raw, (Conv.binary fresh attrs).transform a n raw = Res.ok raw) ∧
    (∀ a : Attr, a.isFloat = true → ∀ raw, (Conv.float fresh attrs).transform a n raw = Res.ok raw) := by
  refine ⟨?_, ?_, ?_⟩
  · rintro ⟨p, x⟩ ha b
    cases x with
    | cat _ _ => simp [Attr.isBin] at ha
    | float _ _ => simp [Attr.isBin] at ha
    | bin nm => cases b <;> rfl
  · rintro ⟨p, x⟩ ha raw
    cases x with
    | cat _ _ => simp [Attr.isBin] at ha
    | float _ _ => simp [Attr.isBin] at ha
    | bin nm => rfl
  · rintro ⟨p, x⟩ ha raw
    cases x with
    | cat _ _ => simp [Attr.isFloat] at ha
    | bin _ => simp [Attr.isFloat] at ha
    | float nm pr => rfl

end Golearn
