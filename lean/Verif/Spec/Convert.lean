import Verif.Model.Convert

/-! # What the conversion filters are to do -/

namespace Golearn

/-- The outputs made from the column `a`, in order. -/
def outputs (l : List FAttr) (a : Attr) : List Attr := (l.filter fun p => p.old == a).map FAttr.new

/-- The stored form of the `i`-th value of a categorical attribute. -/
def stored (i : Nat) : Bytes := packU64 (BitVec.ofNat 64 i)

/-- The types and names of the outputs for the column `a`: none but its own if it is kept, one for a category of at most two values, and
otherwise one for each value. -/
def outputBodies (mk : String → AttrBody) (keep : Attr → Bool) (a : Attr) : List AttrBody :=
  match a.body with
  | .cat n vs => if vs.length ≤ 2 then [mk n] else vs.map fun v => mk (n ++ "_" ++ v)
  | b => if keep a then [b] else [mk a.name]

/-- A column of a category is turned into a single output, of the given type and name: `zero` for the first value and `one` for any
other. -/
def SingleOutput (f : Filter) (a : Attr) (body : AttrBody) (vals : List String) (one zero : Bytes) : Prop :=
  ∃ n : Attr, outputs f.attrs a = [n] ∧ n.body = body ∧
    ∀ i, i < vals.length → f.transform a n (stored i) = Res.ok (if i = 0 then zero else one)

/-- A column of a category is turned into one output for each value, of the type and name given by `body`. For every value the
output at the place of the value is `one`, and all others are `zero`. -/
def OneHotOutputs (f : Filter) (a : Attr) (body : String → AttrBody) (vals : List String) (one zero : Bytes) : Prop :=
  ∃ ns : List Attr, outputs f.attrs a = ns ∧ ns.length = vals.length ∧
    (∀ (j : Nat) (v : String), vals[j]? = some v → ∃ n : Attr, ns[j]? = some n ∧ n.body = body v) ∧
    ∀ i, i < vals.length → ∀ (j : Nat) (n : Attr), ns[j]? = some n → f.transform a n (stored i) = Res.ok (if i = j then one else zero)

end Golearn
