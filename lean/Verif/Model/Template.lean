import Verif.Model.Csv

/-!
# Reading a CSV file with other instances as a template (base/csv.go:238-288, base/util_instances.go:25-54)

The attributes of the template are taken with the values they have when the file is read.
-/

namespace Golearn

/-- The size with which a group is created again, base/util_instances.go:31-35. -/
def groupSize (t : Dense) (name : String) : Nat :=
  match (t.agMap.get? name).bind fun id => t.ags[id]? with
  | some ⟨.binary, _, _⟩ => 0
  | _ => 8

/-- The groups of the copy, base/util_instances.go:28-36. `ord` are the names of the groups in the order of the map; errors are ignored by the code. -/
def copyGroups (t : Dense) (ord : List String) : Dense :=
  ord.foldl (fun d n =>
    match d.createAttributeGroup n (groupSize t n) with
    | .ok d' => d'
    | _ => d) Dense.new

/-- The attributes of the copy, base/util_instances.go:38-52. -/
def copyAttrs (t : Dense) : List Attr → Dense → Res Dense
  | [], d => Res.ok d
  | a :: as, d =>
    match t.getAttribute a with
    | .ok s =>
      match s.pond.bind fun id => t.agRevMap.get? id with
      | none => Res.panic
      | some ag =>
        match d.addAttributeToGroup a ag with
        | .ok q => copyAttrs t as q.1
        | _ => Res.panic
    | _ => Res.panic

/-- `CopyDenseInstances`, base/util_instances.go:27-54. -/
def copyDense (t : Dense) (ord : List String) (attrs : List Attr) : Res Dense := copyAttrs t attrs (copyGroups t ord)

/-- The loop over the class attributes, base/csv.go:280-285: the first error is returned. -/
def addTemplateClasses : Dense → List Attr → Res Dense
  | d, [] => Res.ok d
  | d, a :: as => (d.addClassAttribute a).bind fun d' => addTemplateClasses d' as

/-- `ParseCSVToTemplatedInstancesFromReader`, base/csv.go:254-288. Returns the grid and the values of the categorical attributes, which are those of the
template too: the attributes are shared. -/
def parseCSVTemplated (co : CsvOps) (srt : List Spec → List Spec) (fresh : Nat → Nat) (ord : List String) (hasHeaders : Bool) (t : Dense)
    (records : List (List String)) : Res (Dense × ValEnv) :=
  (csvRowCount records).bind fun n =>
    (csvAttrs co fresh records hasHeaders).bind fun attrs0 =>
      let attrs := attrs0.map fun a => matchAttr a t.allAttributes
      (copyDense t ord t.allAttributes).bind fun d =>
        (csvBuild co srt (d.extend (if hasHeaders then n - 1 else n)) (envOf t.allAttributes) attrs hasHeaders records).bind fun q =>
          (addTemplateClasses q.1 t.allClassAttributes).map fun d' => (d', q.2)

end Golearn
