import Verif.Spec.Perceptron
import Verif.Spec.KnnColumns

/-! # Specification vocabulary: the perceptron with columns in another order -/

namespace Golearn

section
variable {K : Type} [Field K] [LinearOrder K]

/-- The whole claim: a new perceptron with a weight for each numeric column is trained on a table. Its predictions for two tables with
the same numeric columns in any orders, with the same numbers, are the same. -/
def C162_by_name (K : Type) [Field K] [LinearOrder K] : Prop :=
  ∀ (fo : FloatOps) (val : U64 → K) (srt : List Spec → List Spec), PositionSort srt →
    ∀ (rate start err : K) (g what what' : Grid) (n m : Nat) (c : Attr) (s0 s1 : String) (k kW kW' : Nat → String),
      TwoClasses fo g n c s0 s1 k → TwoClasses fo what m c s0 s1 kW → TwoClasses fo what' m c s0 s1 kW' →
      what.nonClassFloats.Perm g.nonClassFloats → what'.nonClassFloats.Perm g.nonClassFloats →
      SameNumbers val what what' m g.nonClassFloats →
      (checkCompatible what' g).isSome = (checkCompatible what g).isSome →
      ∀ order, g.RowOrder order → ∀ orderW, what.RowOrder orderW → what'.RowOrder orderW →
      ∀ q, (newPerceptron g.nonClassFloats.length rate start err).fit fo val srt order g = Res.ok q →
      ∀ pg, q.predict fo val pg srt orderW what' = q.predict fo val pg srt orderW what
end

end Golearn
