import Verif.Model.Em

/-! # What expectation maximisation is to do -/

namespace Golearn

variable {K Cov : Type}

/-- `k` is the first of the numbers below `n` whose value is greatest. -/
def FirstBest {V : Type} [LinearOrder V] (n : Nat) (v : Nat → V) (k : Nat) : Prop :=
  k < n ∧ (∀ j < n, v j ≤ v k) ∧ ∀ j < k, v j < v k

/-- The components have normal distributions, with log-probabilities `lp`. -/
def HasNormals (lib : EmLib K Cov) (p : EmParams K Cov) (comps : Nat) (lp : Nat → List K → WithBot K) : Prop :=
  ∀ k < comps, ∃ m c, p.means[k]? = some m ∧ p.covs[k]? = some c ∧ lib.normal m c = some (lp k)

/-- The rows assigned to component `k`. -/
def assigned (X : List (List K)) (y : List Nat) (k : Nat) : List (List K) :=
  ((X.zip y).filter fun p => decide (p.2 = k)).map Prod.fst

/-- The average of column `j`. -/
def columnMean [Field K] (X : List (List K)) (j : Nat) : K := (X.map fun x => x.getD j 0).sum / (X.length : K)

/-- The sample variances of the columns are on the diagonal. -/
def columnVariances [Zero K] (lib : EmLib K Cov) (feats : Nat) (X : List (List K)) : Cov :=
  lib.diagonal ((List.range feats).map fun j => lib.variance (X.map fun x => x.getD j 0))

open Classical in
/-- The rows for which component `k` is the first of the most probable ones. -/
noncomputable def emRowsOf [LinearOrder K] (comps : Nat) (lp : Nat → List K → WithBot K) (X : List (List K)) (k : Nat) : List (List K) :=
  X.filter fun x => decide (FirstBest comps (fun j => lp j x) k)

/-- One turn leads from the parameters `p` to `q`: every component has a normal distribution and at least one row that is most probable under it. A
component with one row stays as it is. Otherwise its mean is that of its rows, and its covariance matrix is theirs, or has their variances on the
diagonal if there are fewer rows than attributes. -/
def EmTurn [Field K] [LinearOrder K] (lib : EmLib K Cov) (feats comps : Nat) (X : List (List K)) (p q : EmParams K Cov) : Prop :=
  ∃ lp, HasNormals lib p comps lp ∧ q.means.length = comps ∧ q.covs.length = comps ∧ ∀ k < comps,
    let Xk := emRowsOf comps lp X k
    0 < Xk.length ∧ (Xk.length = 1 → q.means[k]? = p.means[k]? ∧ q.covs[k]? = p.covs[k]?) ∧
    (1 < Xk.length → q.means[k]? = some ((List.range feats).map (columnMean Xk)) ∧
      q.covs[k]? = some (if Xk.length < feats then columnVariances lib feats Xk else lib.covariance Xk))

/-- How far the means have moved: the Euclidean distance. -/
def emMoved [Field K] (lib : EmLib K Cov) (feats comps : Nat) (p q : EmParams K Cov) : K :=
  lib.sqrt ((List.range comps).map fun k => ((List.range feats).map fun j =>
    (((p.means[k]?.getD []).getD j 0) - ((q.means[k]?.getD []).getD j 0)) ^ 2).sum).sum

/-- Some turns, each of which moves the means by `eps` or more, lead from `p` to `q`. -/
inductive EmReaches [Field K] [LinearOrder K] (lib : EmLib K Cov) (eps : K) (feats comps : Nat) (X : List (List K)) (p : EmParams K Cov) :
    EmParams K Cov → Prop
  | start : EmReaches lib eps feats comps X p p
  | turn {q r} : EmReaches lib eps feats comps X p q → EmTurn lib feats comps X q r → ¬ emMoved lib feats comps q r < eps →
      EmReaches lib eps feats comps X p r

/-- The first parameters: means between the least and the greatest value of their columns, as far between them as the random numbers say, and
ones on the diagonals of the covariance matrices. -/
def EmStart [Field K] [LinearOrder K] (lib : EmLib K Cov) (draw : Nat → Nat → K) (feats comps : Nat) (X : List (List K)) (p : EmParams K Cov) : Prop :=
  p.covs = List.replicate comps (lib.diagonal (List.replicate feats 1)) ∧ p.means.length = comps ∧ ∀ k < comps, ∃ m, p.means[k]? = some m ∧
    m.length = feats ∧ ∀ j < feats, ∃ lo ∈ X, ∃ hi ∈ X, (∀ x ∈ X, lo.getD j 0 ≤ x.getD j 0 ∧ x.getD j 0 ≤ hi.getD j 0) ∧
      m.getD j 0 = lo.getD j 0 + draw k j * (hi.getD j 0 - lo.getD j 0)

end Golearn
