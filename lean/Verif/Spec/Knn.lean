import Verif.Model.Knn
import Verif.Spec.KdTree
import Verif.Spec.Labels

/-! # Specification vocabulary: nearest neighbours -/

namespace Golearn

/-- A sort of numbers by a value: a permutation with ascending values. -/
def SortsKeys {R : Type} [LinearOrder R] (srt : (Nat → R) → List Nat → List Nat) : Prop :=
  ∀ v l, (srt v l).Perm l ∧ (srt v l).Pairwise fun i j => v i ≤ v j

/-- `c` is one of the labels and no label occurs more often. -/
def Majority (labels : List String) (c : String) : Prop :=
  c ∈ labels ∧ ∀ c', labels.count c' ≤ labels.count c

/-- The total weight of a label: the sum of one over the distance for the rows with the label. -/
def labelWeight {R : Type} [Field R] [LinearOrder R] (lab : Nat → String) (out : List (Nat × R)) (c : String) :
    WithTop R :=
  ((out.filter fun p => lab p.1 == c).map fun p => invLength p.2).sum

/-- `c` is one of the labels and no label has a larger total weight. -/
def Heaviest {R : Type} [Field R] [LinearOrder R] (lab : Nat → String) (out : List (Nat × R)) (c : String) : Prop :=
  c ∈ (out.map fun p => lab p.1) ∧ ∀ c', labelWeight lab out c' ≤ labelWeight lab out c

/-- A sort with a comparison that is always false moves the elements in a way that depends on their number
only. -/
def PositionSort (srt : List Spec → List Spec) : Prop :=
  ∃ σ : Nat → List Nat, (∀ n, (σ n).Perm (List.range n)) ∧ ∀ l, srt l = (σ l.length).filterMap fun i => l[i]?

/-- Looking up one of the given attributes finds the column of an equal attribute. -/
def Grid.Finds (g : Grid) (as : List Attr) : Prop :=
  ∀ a ∈ as, ∃ b ∈ g.allAttributes, b.equals a = true ∧ g.getAttribute a = g.getAttribute b

/-- The number in the column of `a`, row `r`. -/
def Grid.number {R : Type} [Zero R] (val : U64 → R) (g : Grid) (a : Attr) (r : Nat) : R :=
  match unpackFloatBits (g.cell a r) with
  | .ok u => val u
  | _ => 0

/-- The numbers of a row in the columns of the given attributes. -/
def Grid.point {R : Type} [Zero R] (val : U64 → R) (g : Grid) (as : List Attr) (r : Nat) : List R :=
  as.map fun a => g.number val a r

/-- Training data with one class attribute, whose rows read as the labels `lab`, and data with the same
attributes to be predicted, with one categorical class attribute. -/
structure KnnData (fo : FloatOps) (train what : Grid) (nT nW : Nat) (lab : Nat → String) (cls : Attr) : Prop where
  trainRows : train.Presents nT
  whatRows : what.Presents nW
  trainTyped : train.typed nT
  whatTyped : what.typed nW
  same : checkCompatible what train = some what.allAttributes
  finds : train.Finds what.allAttributes
  whatClass : what.allClassAttributes = [cls]
  whatClassIn : cls ∈ what.allAttributes
  label : ∃ c, train.allClassAttributes = [c] ∧ c ∈ train.allAttributes ∧ ReadsAs fo train c nT lab

/-- The square of the Euclidean distance. -/
def sqDist {R : Type} [Ring R] (x y : List R) : R := (List.zipWith (fun a b => (a - b) * (a - b)) x y).sum

/-- Every group of attributes has one name, and no two have the same. -/
structure Dense.GroupsNamed (d : Dense) : Prop where
  names : (d.agMap.map Prod.fst).Nodup
  groups : (d.agMap.map Prod.snd).Perm (List.range d.ags.length)

/-- Dense instances, and views of them: no filter is involved. -/
def Grid.plain : Grid → Bool
  | .dense _ => true
  | .view src _ _ _ _ => src.plain
  | .filt _ _ _ _ => false

end Golearn
