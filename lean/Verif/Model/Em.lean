import Verif.Model.Cluster
import Verif.Model.Regression

/-!
# Expectation maximisation (clustering/em.go)

Numbers are elements of an ordered field `K`. What gonum computes is a parameter: the log-probability of a normal distribution (none if the
covariance matrix is not positive definite), covariance matrices, variances and the square root. `WithBot K` adds minus infinity. `mat.NewDense`
panics if a dimension is zero.
-/

namespace Golearn

variable {K Cov : Type}

/-- What gonum provides. -/
structure EmLib (K Cov : Type) where
  /-- `distmv.NewNormal` and `LogProb` -/
  normal : List K → Cov → Option (List K → WithBot K)
  /-- `stat.CovarianceMatrix` -/
  covariance : List (List K) → Cov
  /-- `stat.Variance` -/
  variance : List K → K
  /-- `mat.NewSymDense` with the given diagonal and zeros elsewhere -/
  diagonal : List K → Cov
  /-- `math.Sqrt` -/
  sqrt : K → K

/-- `Params`, clustering/em.go:27-30: a mean and a covariance matrix per component. -/
structure EmParams (K Cov : Type) where
  means : List (List K)
  covs : List Cov

/-- The inner loop of `estimateLogProb`, clustering/em.go:179-186: `k` is the number of the first of the remaining components. -/
def emArgmax [LinearOrder K] (x : List K) : List (List K → WithBot K) → Nat → Nat × WithBot K → Nat × WithBot K
  | [], _, best => best
  | f :: fs, k, best => emArgmax x fs (k + 1) (if f x > best.2 then (k, f x) else best)

/-- `estimateLogProb`, clustering/em.go:160-192. A matrix with no rows panics. -/
def estimateLogProb [LinearOrder K] (lib : EmLib K Cov) (X : List (List K)) (p : EmParams K Cov) (comps : Nat) : Res (List Nat) :=
  (mapRes (fun k =>
    match p.means[k]?, p.covs[k]? with
    | some m, some c => (match lib.normal m c with | some f => Res.ok f | none => Res.panic)
    | _, _ => Res.panic) (List.range comps)).bind fun N =>
      Res.ok (X.map fun x => (emArgmax x N 0 (0, ⊥)).1)

/-- `where`, clustering/em.go:304-318: the rows whose label is `k`. -/
def emWhere (X : List (List K)) (y : List Nat) (k : Nat) : Res (List (List K)) :=
  let rows := ((X.zip y).filter fun p => decide (p.2 = k)).map Prod.fst
  if rows = [] then Res.panic else Res.ok rows

/-- `means`, clustering/em.go:289-301. -/
def emMeans [Field K] (feats : Nat) (X : List (List K)) : List K :=
  (List.range feats).map fun j => X.foldl (fun s x => s + x.getD j 0) 0 / (X.length : K)

/-- `shrunkCovariance`, clustering/em.go:195-210. -/
def shrunkCovariance [Zero K] (lib : EmLib K Cov) (feats : Nat) (X : List (List K)) : Cov :=
  lib.diagonal ((List.range feats).map fun j => lib.variance (X.map fun x => x.getD j 0))

/-- One component of `maximization`, clustering/em.go:137-153. -/
def emComponent [Field K] (lib : EmLib K Cov) (feats : Nat) (X : List (List K)) (y : List Nat) (p : EmParams K Cov) (k : Nat) :
    Res (List K × Cov) :=
  (emWhere X y k).bind fun Xk =>
    if Xk.length ≤ 1 then
      match p.means[k]?, p.covs[k]? with
      | some m, some c => Res.ok (m, c)
      | _, _ => Res.panic
    else if Xk.length < feats then Res.ok (emMeans feats Xk, shrunkCovariance lib feats Xk)
    else Res.ok (emMeans feats Xk, lib.covariance Xk)

/-- `maximization`, clustering/em.go:128-157. -/
def maximization [Field K] (lib : EmLib K Cov) (feats : Nat) (X : List (List K)) (y : List Nat) (p : EmParams K Cov) (comps : Nat) :
    Res (EmParams K Cov) :=
  (mapRes (emComponent lib feats X y p) (List.range comps)).map fun l => ⟨l.map Prod.fst, l.map Prod.snd⟩

/-- `distance`, clustering/em.go:240-251. -/
def emDistance [Field K] (lib : EmLib K Cov) (p q : EmParams K Cov) : K :=
  lib.sqrt ((p.means.zip q.means).foldl (fun d m => (m.1.zip m.2).foldl (fun d x => d + (x.1 - x.2) * (x.1 - x.2)) d) 0)

/-- `vectorMin` and `vectorMax`, clustering/em.go:255-276. -/
def vectorMin [LinearOrder K] (v : List K) (start : K) : K := v.foldl (fun m x => if x < m then x else m) start

/-- See `vectorMin`. -/
def vectorMax [LinearOrder K] (v : List K) (start : K) : K := v.foldl (fun m x => if x > m then x else m) start

/-- `initMeans`, clustering/em.go:213-226. `draw k j` is the random number for component `k` and attribute `j`. -/
def initMeans [Field K] [LinearOrder K] (draw : Nat → Nat → K) (X : List (List K)) (comps feats : Nat) : List (List K) :=
  (List.range comps).map fun k => (List.range feats).map fun j =>
    let v := X.map fun x => x.getD j 0
    let mn := vectorMin v (v.getD 0 0)
    let mx := vectorMax v (v.getD 0 0)
    mn + draw k j * (mx - mn)

/-- The loop of `Fit`, clustering/em.go:71-80: it need not end, so the number of turns is bounded by the fuel, `none` if it is used up. -/
def emLoop [Field K] [LinearOrder K] (lib : EmLib K Cov) (eps : K) (feats comps : Nat) (X : List (List K)) :
    Nat → EmParams K Cov → Option (Res (EmParams K Cov))
  | 0, _ => none
  | fuel + 1, p =>
    match (estimateLogProb lib X p comps).bind fun y => maximization lib feats X y p comps with
    | .ok q => if emDistance lib p q < eps then some (Res.ok q) else emLoop lib eps feats comps X fuel q
    | .err => some Res.err
    | .panic => some Res.panic

/-- The row callback at clustering/em.go:56-61 and 102-107. -/
def emRowCallback (val : U64 → K) (m : Nat → List K) (vals : List Bytes) (row : Nat) : Res ((Nat → List K) × Ctl) :=
  (readRow val vals).map fun t => (setRow m row t, Ctl.cont)

/-- Building the input matrix, clustering/em.go:43-61 and 93-107. -/
def emMatrix [Zero K] (val : U64 → K) (srt : List Spec → List Spec) (order : List Nat) (g : Grid) (attrs : List Attr) : Res (List (List K)) :=
  (g.resolve srt attrs).bind fun specs =>
    if g.size.2 = 0 ∨ attrs = [] then Res.panic
    else
      (keepState (g.mapOverRows specs order (emRowCallback val) fun _ => List.replicate attrs.length 0) fun _ => List.replicate attrs.length 0).map
        fun m => (List.range g.size.2).map m

/-- A fitted model: the attributes and the parameters. -/
structure EmModel (K Cov : Type) where
  attrs : List Attr
  params : EmParams K Cov

/-- `Fit`, clustering/em.go:42-86, of a model with `comps` components; `attrs` are the attributes that are not class attributes. The number of
rows is compared after the attributes are resolved. -/
def emFit [Field K] [LinearOrder K] (lib : EmLib K Cov) (eps : K) (val : U64 → K) (srt : List Spec → List Spec) (draw : Nat → Nat → K)
    (order : List Nat) (g : Grid) (attrs : List Attr) (comps fuel : Nat) : Option (Res (EmModel K Cov)) :=
  match g.resolve srt attrs with
  | .ok _ =>
    if g.size.2 < comps then some Res.err
    else
      match emMatrix val srt order g attrs with
      | .ok X =>
        (emLoop lib eps attrs.length comps X fuel
          ⟨initMeans draw X comps attrs.length, List.replicate comps (lib.diagonal (List.replicate attrs.length 1))⟩).map fun r =>
            r.map fun p => ⟨attrs, p⟩
      | .err => some Res.err
      | .panic => some Res.panic
  | .err => some Res.err
  | .panic => some Res.panic

/-- `Predict`, clustering/em.go:89-118; no model: not fitted. -/
def emPredict [LinearOrder K] [Zero K] (lib : EmLib K Cov) (val : U64 → K) (srt : List Spec → List Spec) (order : List Nat)
    (model : Option (EmModel K Cov)) (comps : Nat) (g : Grid) : Res (GoMap Nat (List Nat)) :=
  match model with
  | none => Res.err
  | some em =>
    (emMatrix val srt order g em.attrs).bind fun X =>
      (estimateLogProb lib X em.params comps).map fun preds =>
        (preds.zipIdx).foldl (fun m p => m.set p.1 ((m.get? p.1).getD [] ++ [p.2])) []

end Golearn
