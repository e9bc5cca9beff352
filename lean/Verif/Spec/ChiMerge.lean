import Verif.Model.ChiMerge
import Mathlib.Algebra.BigOperators.Group.List.Basic
import Mathlib.Algebra.Order.Field.Basic
import Mathlib.Logic.Relation

/-! # What ChiMerge should do -/

namespace Golearn

variable {K : Type}

/-- How often the class `c` occurs in an entry of a frequency table. -/
def FreqEntry.count (e : FreqEntry K) (c : String) : Nat := (e.freq.get? c).getD 0

/-- The keys of the map are distinct, as in every Go map. -/
def FreqEntry.Ok (e : FreqEntry K) : Prop := (e.freq.map Prod.fst).Nodup

/-- `e` stands for the entries of `block`: it has the value of the first one, the classes of all, and the sums of their counts. -/
def Merged (block : List (FreqEntry K)) (e : FreqEntry K) : Prop :=
  (∃ x rest, block = x :: rest ∧ e.value = x.value) ∧
  (∀ c, e.count c = (block.map fun x => x.count c).sum) ∧
  ∀ c, c ∈ e.freq.map Prod.fst ↔ ∃ x ∈ block, c ∈ x.freq.map Prod.fst

/-- `out` is `t` with blocks of neighbouring entries merged. -/
def Coarser (t out : List (FreqEntry K)) : Prop :=
  ∃ blocks, blocks.flatten = t ∧ List.Forall₂ Merged blocks out

/-- The chi-square statistic of two entries over the classes `cs`: with `E = (count of the class in both) * (examples of the entry) /
(examples of both)`, the sum of `(O - E)² / max(E, 1/2)`. -/
def chiSquare [Field K] [LinearOrder K] (cs : List String) (a b : FreqEntry K) : K :=
  let total (e : FreqEntry K) : Nat := (cs.map e.count).sum
  let term (o cls entry : Nat) : K :=
    ((o : K) - (cls : K) * entry / ((total a + total b : Nat) : K)) ^ 2 /
      max ((cls : K) * entry / ((total a + total b : Nat) : K)) (1 / 2)
  (cs.map fun c => term (a.count c) (a.count c + b.count c) (total a)).sum +
    (cs.map fun c => term (b.count c) (a.count c + b.count c) (total b)).sum

/-- The maximal runs of a list in which neighbours are related by `p`. -/
def runs {α : Type} (p : α → α → Bool) : List α → List (List α)
  | [] => []
  | [x] => [[x]]
  | x :: y :: l =>
    if p x y then
      match runs p (y :: l) with
      | b :: bs => (x :: b) :: bs
      | [] => [[x]]
    else [x] :: runs p (y :: l)

/-- `m` is the least statistic of neighbours in `t`. -/
def LeastChi [Field K] [LinearOrder K] (t : List (FreqEntry K)) (m : K) : Prop :=
  m ∈ neighbourChi t ∧ ∀ x ∈ neighbourChi t, m ≤ x

/-- One step of the method: the table is longer than `minrows`, and either longer than `maxrows` or the least statistic is not
significant; all neighbours with the least statistic are merged. -/
def ChiStep [Field K] [LinearOrder K] (below : K → Bool) (minrows maxrows : Nat) (t t' : List (FreqEntry K)) : Prop :=
  minrows < t.length ∧ ∃ m, LeastChi t m ∧ (maxrows < t.length ∨ below m = true) ∧
    List.Forall₂ Merged (runs (fun a b => decide (chiStatistic a.freq b.freq = m)) t) t'

/-- The method stops: the table is no longer than `minrows`, or it is no longer than `maxrows` and the least statistic is
significant. -/
def ChiDone [Field K] [LinearOrder K] (below : K → Bool) (minrows maxrows : Nat) (t : List (FreqEntry K)) : Prop :=
  t.length ≤ minrows ∨ (t.length ≤ maxrows ∧ ∀ m, LeastChi t m → below m = false)

/-- The intervals begin at ascending values, and the entry at `i` counts the examples whose value lies at or above its own value and below
the next one. -/
def CountsIntervals [LinearOrder K] (examples : List (K × String)) (t : List (FreqEntry K)) : Prop :=
  (t.map FreqEntry.value).Pairwise (· < ·) ∧
  ∀ pre e post, t = pre ++ e :: post → ∀ c,
    e.count c = examples.countP fun x => decide (x.2 = c ∧ e.value ≤ x.1 ∧ ∀ f ∈ post, x.1 < f.value)

end Golearn
