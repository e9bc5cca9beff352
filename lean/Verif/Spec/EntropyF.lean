import Verif.Model.EntropyF
import Verif.Spec.Tree

/-! # What is assumed of rule generators with the arithmetic of the machine, and exact arithmetic -/

namespace Golearn

/-- Nothing is assumed of the arithmetic. Sorting is a permutation, and rows, attributes and maps are visited in some order. -/
structure RuleEnvF.Ok {F : Type} (e : RuleEnvF F) : Prop where
  sort : ∀ l, (e.sortRefs l).Perm l
  rowOrder : ∀ g : Grid, g.RowOrder (e.order g)
  cands : ∀ l, (e.cands l).Perm l
  classes : ∀ s, (e.classes s).Perm s
  values : ∀ s, (e.values s).Perm s

/-- Exact numbers with the special values of IEEE 754. -/
inductive ExtNum (K : Type) where
  | num (x : K)
  | nan
  | inf
  | neginf

section
variable {K : Type} [Field K] [LinearOrder K]

/-- An infinity with the sign of `x`; NaN for zero. -/
def ExtNum.signed (x : K) : ExtNum K := if 0 < x then .inf else if x < 0 then .neginf else .nan

/-- `-x`. -/
def ExtNum.neg : ExtNum K → ExtNum K
  | .num x => .num (-x)
  | .nan => .nan
  | .inf => .neginf
  | .neginf => .inf

/-- `x + y`. -/
def ExtNum.add : ExtNum K → ExtNum K → ExtNum K
  | .nan, _ => .nan
  | _, .nan => .nan
  | .num x, .num y => .num (x + y)
  | .num _, b => b
  | a, .num _ => a
  | .inf, .inf => .inf
  | .neginf, .neginf => .neginf
  | _, _ => .nan

/-- `x * y`. -/
def ExtNum.mul : ExtNum K → ExtNum K → ExtNum K
  | .nan, _ => .nan
  | _, .nan => .nan
  | .num x, .num y => .num (x * y)
  | .num x, .inf => signed x
  | .num x, .neginf => signed (-x)
  | .inf, .num x => signed x
  | .neginf, .num x => signed (-x)
  | .inf, .inf => .inf
  | .neginf, .neginf => .inf
  | _, _ => .nan

/-- `x / y`. -/
def ExtNum.div : ExtNum K → ExtNum K → ExtNum K
  | .nan, _ => .nan
  | _, .nan => .nan
  | .num x, .num y => if y = 0 then signed x else .num (x / y)
  | .num _, _ => .num 0
  | .inf, .num y => if y < 0 then .neginf else .inf
  | .neginf, .num y => if y < 0 then .inf else .neginf
  | _, _ => .nan

/-- `math.Log`. -/
def ExtNum.log (ln : K → K) : ExtNum K → ExtNum K
  | .num x => if 0 < x then .num (ln x) else if x = 0 then .neginf else .nan
  | .nan => .nan
  | .inf => .inf
  | .neginf => .nan

/-- `x > y`. -/
def ExtNum.gt : ExtNum K → ExtNum K → Bool
  | .nan, _ => false
  | _, .nan => false
  | .num x, .num y => decide (y < x)
  | .inf, .inf => false
  | .inf, _ => true
  | _, .inf => false
  | .neginf, _ => false
  | _, .neginf => true

/-- `x == 0`. -/
def ExtNum.isZero : ExtNum K → Bool
  | .num x => decide (x = 0)
  | _ => false

/-- Arithmetic without rounding, with the rules of IEEE 754 for infinities and NaN and with the natural logarithm `ln`. A zero
divisor counts as `+0`. -/
def exactArith (ln : K → K) : Arith (ExtNum K) :=
  ⟨.add, fun a b => .add a (.neg b), .mul, .div, .log ln, fun n => .num n, ExtNum.gt, ExtNum.isZero, .inf, .neginf⟩

/-- The rule generator without rounding. -/
def RuleEnvF.exact (e : RuleEnvF (ExtNum K)) (lg : K → K) : RuleEnv K :=
  ⟨e.fo, e.feq, e.mid, lg, e.sortRefs, e.order, e.cands⟩

end

end Golearn
