import Verif.Model.Predict
import Verif.Model.Knn
import Verif.Model.Sort
import Mathlib.Algebra.Order.Field.Basic

/-! # Bernoulli naive Bayes (naive/bernoulli_nb.go). Numbers are exact: elements of an ordered field. -/

namespace Golearn

/-- The counters filled by `Fit`, naive/bernoulli_nb.go:212-216. -/
structure NBCounts where
  inst : GoMap String Nat
  docs : GoMap String (List Nat)
  deriving DecidableEq, Repr

/-- The loop over the values of a row, naive/bernoulli_nb.go:231-246; `j` is the number of the feature. The slice `t` is
shared with the map, so `t[feat] += 1` changes the entry of the map. -/
def nbFeatures (features : Nat) (cls : String) : List Bytes → Nat → GoMap String (List Nat) → Res (GoMap String (List Nat))
  | [], _, m => Res.ok m
  | v :: vs, j, m =>
    match v with
    | [] => Res.panic
    | b :: _ =>
      if 0 < b.toNat then
        let t := (m.get? cls).getD (List.replicate features 0)
        match t[j]? with
        | some x => nbFeatures features cls vs (j + 1) (m.set cls (t.set j (x + 1)))
        | none => Res.panic
      else nbFeatures features cls vs (j + 1) m

/-- The row callback of `Fit`, naive/bernoulli_nb.go:221-248. -/
def nbCallback (fo : FloatOps) (g : Grid) (features : Nat) (s : NBCounts) (vals : List Bytes) (row : Nat) :
    Res (NBCounts × Ctl) :=
  (getClass fo g row).bind fun c =>
    (nbFeatures features c vals 0 s.docs).map fun docs => (⟨incr s.inst c, docs⟩, Ctl.cont)

section
variable {K : Type} [Field K] [LinearOrder K]

/-- `BernoulliNBClassifier`, naive/bernoulli_nb.go:40-57, without the structural copy kept for saving. -/
structure NB (K : Type) where
  condProb : GoMap String (List K)
  inst : GoMap String Nat
  rows : Nat
  features : Nat
  attrs : List Attr

/-- The conditional probabilities of class `c`, naive/bernoulli_nb.go:252-261: indexing a nil slice panics. -/
def nbCond (features : Nat) (s : NBCounts) (c : String) : Res (List K) :=
  mapRes (fun j => match ((s.docs.get? c).getD [])[j]? with
    | some d => Res.ok (((d + 1 : Nat) : K) / (((s.inst.get? c).getD 0 + 1 : Nat) : K))
    | none => Res.panic) (List.range features)

/-- The loop over the classes, naive/bernoulli_nb.go:250-262. -/
def nbConds (features : Nat) (s : NBCounts) : List String → GoMap String (List K) → Res (GoMap String (List K))
  | [], m => Res.ok m
  | c :: cs, m => (nbCond features s c).bind fun l => nbConds features s cs (m.set c l)

/-- `Fit`, naive/bernoulli_nb.go:189-266. `order` is the order of the rows, `ordC` the order of iteration over the
classes, and `old` holds the conditional probabilities of an earlier call, which are not removed. -/
def nbFit (fo : FloatOps) (srt : List Spec → List Spec) (order : List Nat) (ordC : List String → List String)
    (old : GoMap String (List K)) (X : Grid) : Res (NB K) :=
  let feats := attrDifference X.allAttributes X.allClassAttributes
  if feats.any (fun a => !a.isBin) then Res.err
  else (X.resolve srt feats).bind fun sp =>
    if X.allClassAttributes.length ≠ 1 then Res.err
    else (keepState (X.mapOverRows sp order (nbCallback fo X feats.length) ⟨[], []⟩) ⟨[], []⟩).bind fun s =>
      (nbConds feats.length s (ordC (s.inst.map Prod.fst)) old).map fun cp => ⟨cp, s.inst, X.size.2, feats.length, feats⟩

/-- The argument of the logarithm for one feature, naive/bernoulli_nb.go:294-304. -/
def nbTerm (count : Nat) (p : K) (has : Bool) : K :=
  if has then p else if p = 1 then 1 / ((count + 1 : Nat) : K) else 1 - p

/-- The loop over the features, naive/bernoulli_nb.go:293-305. -/
def nbScoreLoop (log : K → K) (count : Nat) (cond : List K) : List Bytes → Nat → K → Res K
  | [], _, acc => Res.ok acc
  | v :: vs, j, acc =>
    match v, cond[j]? with
    | b :: _, some p => nbScoreLoop log count cond vs (j + 1) (acc + log (nbTerm count p (decide (0 < b.toNat))))
    | _, _ => Res.panic

/-- The score of a class, naive/bernoulli_nb.go:292-305. -/
def nbScore (log : K → K) (nb : NB K) (vector : List Bytes) (c : String) : Res K :=
  let count := (nb.inst.get? c).getD 0
  nbScoreLoop log count ((nb.condProb.get? c).getD []) vector 0 (log ((count : K) / (nb.rows : K)))

/-- The loop over the classes, naive/bernoulli_nb.go:290-311. -/
def nbBest (log : K → K) (nb : NB K) (vector : List Bytes) : List String → String × K → Res (String × K)
  | [], best => Res.ok best
  | c :: cs, best =>
    (nbScore log nb vector c).bind fun s => nbBest log nb vector cs (if s > best.2 then (c, s) else best)

/-- `PredictOne`, naive/bernoulli_nb.go:277-315; `low` is `-math.MaxFloat64` and `ordC` the order of iteration over the
classes. -/
def nbPredictOne (log : K → K) (low : K) (ordC : List String → List String) (nb : NB K) (vector : List Bytes) :
    Res String :=
  if nb.features = 0 then Res.panic
  else if vector.length ≠ nb.features then Res.panic
  else (nbBest log nb vector (ordC (nb.inst.map Prod.fst)) ("", low)).map Prod.fst

/-- `Predict`, naive/bernoulli_nb.go:321-334. The order of iteration may differ from row to row. -/
def nbPredict (log : K → K) (low : K) (fo : FloatOps) (parse : String → Option U64) (pg : Nat)
    (srt : List Spec → List Spec) (order : List Nat) (ordC : Nat → List String → List String) (nb : NB K) (what : Grid) :
    Res Dense :=
  (generatePredictionVector pg what).bind fun ret =>
    (what.resolve srt nb.attrs).bind fun sp =>
      keepState (what.mapOverRows sp order (fun d vals row =>
        (nbPredictOne log low (ordC row) nb vals).bind fun c =>
          (setClass fo parse d row c).map fun d' => (d', Ctl.cont)) ret) ret
end

end Golearn
