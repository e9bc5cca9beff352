import Verif.Model.Frame

/-! # What a data set made of a data frame must say -/

namespace Golearn

/-- A data frame as dataframe-go makes them: the names differ and every column has a value, or nil, for every row. -/
def Frame.Good (f : Frame) : Prop := (f.cols.map Prod.fst).Nodup ∧ ∀ c ∈ f.cols, c.2.length = f.rows

/-- The value in row `i` of column `j`. -/
def Frame.val (f : Frame) (i j : Nat) : Option FVal := f.cols[j]?.bind fun c => c.2[i]?

/-- A column of text: its first value is a string. -/
def Frame.isText (f : Frame) (j : Nat) : Bool :=
  match f.val 0 j with
  | some (.str _) => true
  | _ => false

/-- The frame can be converted: it has rows, no column starts with a missing value, the text of every value of a numeric column is a number,
and the class column exists. -/
structure Frame.Convertible (fo : FrameOps) (f : Frame) (cls : Int) : Prop where
  rows : 0 < f.rows
  first : ∀ j, f.val 0 j ≠ some .nil
  numbers : ∀ i j v, f.val i j = some v → f.isText j = false → (fo.parse (frameText fo v)).isSome
  cls : 0 ≤ cls ∧ cls < f.cols.length

/-- The grid `d`, with `env` the values of its categorical attributes, holds the frame. -/
structure Framed (fo : FrameOps) (f : Frame) (cls : Int) (d : Dense) (env : ValEnv) (as : List Attr) : Prop where
  size : d.size = (f.cols.length, f.rows)
  attrs : d.allAttributes.Perm as
  named : as.map Attr.name = f.cols.map Prod.fst
  kinds : ∀ j a, as[j]? = some a → a.isBin = false ∧ a.isCat = f.isText j
  cls : ∀ a, a ∈ d.allClassAttributes ↔ as[cls.toNat]? = some a
  cells : ∀ i j a v, as[j]? = some a → f.val i j = some v →
    ∃ s c, d.getAttribute a = Res.ok s ∧ d.get s i = Res.ok c ∧
      (a.isCat = false → ∃ b, fo.parse (frameText fo v) = some b ∧ c = packU64 b) ∧
      (a.isCat = true → catGetString (env a.ptr) c = Res.ok (frameText fo v))
  values : ∀ j a, as[j]? = some a → a.isCat = true → (env a.ptr).Nodup ∧
    ∀ x, x ∈ env a.ptr ↔ ∃ i v, f.val i j = some v ∧ x = frameText fo v

end Golearn
