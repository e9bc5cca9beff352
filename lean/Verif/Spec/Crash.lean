import Verif.Model.Save

/-! # Files whose writing was interrupted

The program, or the machine, can stop at any moment while a model is being saved. The file is emptied when it is opened
(base/serialize.go:386) and its entries are written one after the other, so that afterwards it begins with some of the entries of the
complete file. Then there may be a part of one more entry. Looking for an entry by name (`GetNamedFile`, base/serialize.go:35-69) is an
error when it comes to the end of such a file (`tar.Reader.Next` reports an unexpected end) or to an incomplete entry of that name
(`ioutil.ReadAll` reports it). So an incomplete entry counts as missing here. The only reads that do not go through `GetNamedFile` are
those of the cells of a table; for them an incomplete entry is looked at as such. -/

namespace Golearn

/-- `cut` is what is there of the file `full` when its writing was interrupted. -/
def CutShort (cut full : Archive) : Prop := ∃ lost, full = cut ++ lost

/-- The outcome is an error, or the very outcome for the complete file. -/
def SameOrError {α : Type} (cut full : Res α) : Prop := cut = Res.err ∨ cut = full

/-- A step of saving only appends entries to the file; their names have property `P`. -/
def Appends (P : String → Prop) (step : Writer → Res Writer) : Prop :=
  ∀ w w', step w = Res.ok w' → ∃ es, w'.entries = w.entries ++ es ∧ ∀ e ∈ es, P e.1

end Golearn
