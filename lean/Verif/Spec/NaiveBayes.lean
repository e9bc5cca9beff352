import Verif.Model.NaiveBayes
import Verif.Spec.Labels

/-! # Specification vocabulary: naive Bayes -/

namespace Golearn

/-- Row `r` has feature `a`: the byte stored is not zero. -/
def Grid.hasFeature (g : Grid) (a : Attr) (r : Nat) : Bool := (g.cell a r).headD 0#8 != 0#8

/-- The attributes that are not class attributes. -/
def Grid.nonClass (g : Grid) : List Attr := g.allAttributes.filter fun a => !(g.allClassAttributes.any fun c => a.equals c)

/-- A data set of `n` rows of binary features with one class attribute, whose rows have the classes `k 0, k 1, ...`. -/
structure BinaryData (fo : FloatOps) (g : Grid) (n : Nat) (k : Nat → String) : Prop where
  table : g.Presents n
  binary : ∀ a ∈ g.nonClass, a.isBin = true
  bytes : ∀ a ∈ g.nonClass, ∀ r, r < n → ∃ b, g.cell a r = [b]
  cls : ∃ c, g.allClassAttributes = [c] ∧ c ∈ g.allAttributes ∧ ReadsAs fo g c n k

/-- The number of rows of class `c`. -/
def docsIn (n : Nat) (k : Nat → String) (c : String) : Nat := countRows n fun r => k r == c

/-- The number of rows of class `c` that have feature `a`. -/
def docsWith (g : Grid) (n : Nat) (k : Nat → String) (c : String) (a : Attr) : Nat :=
  countRows n fun r => k r == c && g.hasFeature a r

/-- Some row of class `c` has some feature. -/
def ClassHasFeature (g : Grid) (n : Nat) (k : Nat → String) (c : String) : Prop :=
  ∃ r, r < n ∧ k r = c ∧ ∃ a ∈ g.nonClass, g.hasFeature a r = true

section
variable {K : Type} [Field K] [LinearOrder K]

/-- The smoothed fraction of the rows of class `c` that have feature `a`. -/
def smoothed (g : Grid) (n : Nat) (k : Nat → String) (c : String) (a : Attr) : K :=
  ((docsWith g n k c a + 1 : Nat) : K) / ((docsIn n k c + 1 : Nat) : K)

/-- The model holds the counts and the smoothed fractions of the data set, the features in the order `cols`. -/
structure NB.TrainedOn (nb : NB K) (g : Grid) (n : Nat) (k : Nat → String) (cols : List Attr) : Prop where
  rows : nb.rows = n
  attrs : nb.attrs = g.nonClass
  count : nb.features = g.nonClass.length
  order : cols.Perm g.nonClass
  classes : ∀ c, c ∈ nb.inst.map Prod.fst ↔ ∃ r, r < n ∧ k r = c
  inst : ∀ r, r < n → nb.inst.get? (k r) = some (docsIn n k (k r))
  cond : ∀ r, r < n → nb.condProb.get? (k r) = some (cols.map (smoothed g n k (k r)))

/-- The likelihood of a feature being present or absent in class `c`; a feature that all rows of the class have is absent
with the smallest probability. -/
def likelihood (g : Grid) (n : Nat) (k : Nat → String) (c : String) (a : Attr) (has : Bool) : K :=
  if has then smoothed g n k c a
  else if docsWith g n k c a = docsIn n k c then 1 / ((docsIn n k c + 1 : Nat) : K)
  else 1 - smoothed g n k c a

/-- The logarithm of the prior of class `c`, plus those of the likelihoods of the features as they are in row `r` of
`what`. -/
def logPosterior (log : K → K) (g : Grid) (n : Nat) (k : Nat → String) (what : Grid) (r : Nat) (c : String) : K :=
  log ((docsIn n k c : K) / (n : K)) +
    (g.nonClass.map fun a => log (likelihood g n k c a (what.hasFeature a r))).sum

/-- The prior of class `c` times the likelihoods. -/
def posterior (g : Grid) (n : Nat) (k : Nat → String) (what : Grid) (r : Nat) (c : String) : K :=
  ((docsIn n k c : K) / (n : K)) * (g.nonClass.map fun a => likelihood g n k c a (what.hasFeature a r)).prod
end

end Golearn
