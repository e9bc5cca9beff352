import Verif.Model.Dense

/-!
# FixedDataGrid: dense instances, views, lazily filtered instances
(base/domain.go, base/view.go, base/filtered.go, base/dense.go:460-476)

Grids are modelled as values: a view holds its source as it was. Model/Memory models sharing and
shows that calls on shared storage behave as they do on values (C11, C119, C120).
Row numbers are natural numbers (every negative row panics in the code).
-/

namespace Golearn

/-- `FilteredAttribute`, base/filters.go:5-8. -/
structure FAttr where
  old : Attr
  new : Attr
  deriving DecidableEq, Repr

/-- The part of the `Filter` interface (base/filters.go:12-23) used by `LazilyFilteredInstances`. -/
structure Filter where
  /-- `GetAttributesAfterFiltering` -/
  attrs : List FAttr
  /-- `Transform(old, new, bytes)` -/
  transform : Attr → Attr → Bytes → Res Bytes

/-- The three implementations of `FixedDataGrid`: `DenseInstances` (base/dense.go:12-26),
`InstancesView` (base/view.go:10-16), `LazilyFilteredInstances` (base/filtered.go:13-19). -/
inductive Grid where
  | dense (d : Dense)
  | view (src : Grid) (attrs : Option (List Spec)) (rows : Option (GoMap Nat Nat))
      (classAttrs : GoMap Attr Bool) (maskRows : Bool)
  | filt (f : Filter) (src : Grid) (classAttrs : GoMap Attr Bool) (unfiltered : GoMap Attr Bool)

/-- What a row callback answers: continue, stop (`false, nil`), or an error. -/
inductive Ctl where
  | cont
  | stop
  | error
  deriving DecidableEq, Repr

/-- The loop of every `MapOverRows`: base/dense.go:462-474, base/view.go:210-222. `vals r` builds the
row buffer, `cb` is the callback with its captured state. Returns the final captured state and
whether the callback's error was returned. The buffer is shared between calls in Go; the model
passes its contents. -/
def mapOver {σ : Type} (vals : Nat → Res (List Bytes)) (cb : σ → List Bytes → Nat → Res (σ × Ctl)) :
    σ → List Nat → Res (σ × Bool)
  | s, [] => Res.ok (s, false)
  | s, r :: rs =>
    (vals r).bind fun v =>
      (cb s v r).bind fun p =>
        match p.2 with
        | .cont => mapOver vals cb p.1 rs
        | .stop => Res.ok (p.1, false)
        | .error => Res.ok (p.1, true)

/-- Apply a fallible function to each element, first failure wins. -/
def mapRes {α β : Type} (f : α → Res β) : List α → Res (List β)
  | [] => Res.ok []
  | a :: as => (f a).bind fun b => (mapRes f as).bind fun bs => Res.ok (b :: bs)

namespace Grid

/-- Lookup in a `map[Attribute]bool` with default `false`. -/
def flag (m : GoMap Attr Bool) (a : Attr) : Bool := (m.get? a).getD false

/-- Loop of `InstancesView.GetAttribute`, base/view.go:126-131. -/
def findSpec (specs : List Spec) (a : Attr) : Option Spec :=
  match specs with
  | [] => none
  | s :: rest => if s.attr.equals a then some s else findSpec rest a

/-- Loop of `LazilyFilteredInstances.GetAttribute`, base/filtered.go:61-67. -/
def findNew (target : Attr) : List FAttr → Nat → Option Spec
  | [], _ => none
  | a :: rest, i => if a.new.equals target then some ⟨none, i, target⟩ else findNew target rest (i + 1)

/-- `GetAttribute`: base/dense.go:263-276, base/view.go:117-133, base/filtered.go:55-69. -/
def getAttribute : Grid → Attr → Res Spec
  | .dense d, a => d.getAttribute a
  | .view src none _ _ _, a => src.getAttribute a
  | .view _ (some specs) _ _ _, a =>
    match findSpec specs a with
    | some s => Res.ok s
    | none => Res.err
  | .filt f src _ unf, a =>
    if flag unf a then src.getAttribute a
    else
      match findNew a f.attrs 0 with
      | some s => Res.ok s
      | none => Res.err

/-- `AllAttributes`: base/dense.go:279-291, base/view.go:136-149, base/filtered.go:73-87. -/
def allAttributes : Grid → List Attr
  | .dense d => d.allAttributes
  | .view src none _ _ _ => src.allAttributes
  | .view _ (some specs) _ _ _ => specs.map Spec.attr
  | .filt f src _ unf =>
    src.allAttributes.flatMap fun a =>
      if flag unf a then [a]
      else (f.attrs.filter fun b => a.equals b.old).map FAttr.new

/-- `AllClassAttributes` in one particular map order (the Go order is any permutation):
base/dense.go:325-341, base/view.go:178-186, base/filtered.go:130-138. -/
def allClassAttributes : Grid → List Attr
  | .dense d => d.allClassAttributes
  | .view _ _ _ cls _ => (cls.filter fun p => p.2).map Prod.fst
  | .filt _ _ cls _ => (cls.filter fun p => p.2).map Prod.fst

/-- `transformNewToOldAttribute`, base/filtered.go:140-154. -/
def newToOld (f : Filter) (src : Grid) (unf : GoMap Attr Bool) (s : Spec) : Res Spec :=
  if flag unf s.attr then Res.ok s
  else
    match f.attrs.find? fun a => a.old.equals s.attr || a.new.equals s.attr with
    | some a =>
      match src.getAttribute a.old with
      | .ok s' => Res.ok s'
      | .err => Res.err
      | .panic => Res.panic
    | none => Res.err

/-- `Get`: base/dense.go:437-439, base/view.go:35-48 and 194-201, base/filtered.go:157-168. -/
def get : Grid → Spec → Nat → Res Bytes
  | .dense d, s, row => d.get s row
  | .view src _ none _ _, s, row => src.get s row
  | .view src _ (some m) _ mask, s, row =>
    match m.get? row with
    | some r => src.get s r
    | none => if mask then Res.panic else src.get s row
  | .filt f src _ unf, s, row =>
    match newToOld f src unf s with
    | .ok old =>
      (src.get old row).bind fun b =>
        if flag unf s.attr then Res.ok b else f.transform old.attr s.attr b
    | _ => Res.panic

/-- `Size`: base/dense.go:480-482, base/view.go:231-247, base/filtered.go:219-221. -/
def size : Grid → Nat × Nat
  | .dense d => d.size
  | .view src attrs rows _ mask =>
    let h := match attrs with | none => src.size.1 | some l => l.length
    let v := match rows with
      | none => src.size.2
      | some m =>
        if mask then m.length
        else if m.length > src.size.2 then m.length else src.size.2
    (h, v)
  | .filt _ src _ _ => src.size

/-- The row orders `MapOverRows` may use: base/dense.go:462 (increasing), base/view.go:210 (`range`
over a Go map: any order of the keys), base/view.go:224 and base/filtered.go:187 (the source's). -/
def RowOrder : Grid → List Nat → Prop
  | .dense d, o => o = List.range d.maxRow
  | .view src _ rows _ mask, o =>
    if mask then o.Perm ((rows.getD []).map Prod.fst) else RowOrder src o
  | .filt _ src _ _, o => RowOrder src o

/-- Work done by `MapOverRows` before the loop: only base/filtered.go:176-183 can fail. -/
def mapPrep : Grid → List Spec → Res Unit
  | .dense _, _ => Res.ok ()
  | .view src _ _ _ mask, as => if mask then Res.ok () else mapPrep src as
  | .filt f src _ unf, as =>
    match mapRes (newToOld f src unf) as with
    | .ok old => mapPrep src old
    | .err => Res.err
    | .panic => Res.panic

/-- Contents of the row buffer for row `r`: base/dense.go:463-466, base/view.go:211-214,
base/filtered.go:187-193. -/
def rowVals : Grid → List Spec → Nat → Res (List Bytes)
  | .dense d, as, r => mapRes (fun s => d.get s r) as
  | .view src _ rows _ mask, as, r =>
    if mask then
      match GoMap.get? (rows.getD []) r with
      | some r' => mapRes (fun s => src.get s r') as
      | none => Res.panic
    else rowVals src as r
  | .filt f src _ unf, as, r =>
    match mapRes (newToOld f src unf) as with
    | .ok old =>
      (rowVals src old r).bind fun bs =>
        mapRes (fun p : (Spec × Spec) × Bytes => f.transform p.1.1.attr p.1.2.attr p.2)
          ((old.zip as).zip bs)
    | .err => Res.err
    | .panic => Res.panic

/-- `MapOverRows` in the row order `order` (see `RowOrder`): base/dense.go:460-476,
base/view.go:207-227, base/filtered.go:172-194. -/
def mapOverRows {σ : Type} (g : Grid) (as : List Spec) (order : List Nat)
    (cb : σ → List Bytes → Nat → Res (σ × Ctl)) (s : σ) : Res (σ × Bool) :=
  (g.mapPrep as).bind fun _ => mapOver (g.rowVals as) cb s order

/-- The loop of `ResolveAttributes`, base/util_attributes.go:47-54: a failed lookup panics. -/
def resolveUnsorted (g : Grid) (attrs : List Attr) : Res (List Spec) :=
  mapRes (fun a => match g.getAttribute a with
    | .ok s => Res.ok s
    | _ => Res.panic) attrs

/-- `ResolveAttributes`, base/util_attributes.go:44-59. The final `sort.Sort(byPosition(ret))` uses
a comparison that is always false (base/spec.go:24-30), so it may leave the specifications in any
order. -/
def Resolves (g : Grid) (attrs : List Attr) (out : List Spec) : Prop :=
  ∃ l, g.resolveUnsorted attrs = Res.ok l ∧ out.Perm l

/-- The flag `matched` computed at base/view.go:20-28. -/
def classMatched (attrs : Option (List Spec)) (a : Attr) : Bool :=
  match attrs with
  | none => true
  | some specs => specs.any fun b => b.attr.equals a

/-- `addClassAttrsFromSrc`, base/view.go:18-33. -/
def classFromSrc (attrs : Option (List Spec)) (srcClass : List Attr) : GoMap Attr Bool :=
  srcClass.foldl (fun m a => if classMatched attrs a then m.set a true else m) []

/-- `NewInstancesViewFromRows`, base/view.go:57-68. -/
def viewFromRows (src : Grid) (rows : GoMap Nat Nat) : Grid :=
  .view src none (some rows) (classFromSrc none src.allClassAttributes) false

/-- The map built from a slice of rows, base/view.go:87-89. -/
def rowsOfList (rows : List Nat) : GoMap Nat Nat := (List.range rows.length).zip rows

/-- `NewInstancesViewFromVisible`, base/view.go:78-93; `specs` is the result of
`ResolveAttributes(src, attrs)`. -/
def viewFromVisible (src : Grid) (rows : List Nat) (specs : List Spec) : Grid :=
  .view src (some specs) (some (rowsOfList rows))
    (classFromSrc (some specs) src.allClassAttributes) true

/-- `NewInstancesViewFromAttrs`, base/view.go:99-110; `specs` as above. -/
def viewFromAttrs (src : Grid) (specs : List Spec) : Grid :=
  .view src (some specs) none (classFromSrc (some specs) src.allClassAttributes) false

/-- `AddClassAttribute` on a view (base/view.go:153-167) and on filtered instances
(base/filtered.go:91-107). -/
def addClassAttribute : Grid → Attr → Res Grid
  | .dense d, a => (d.addClassAttribute a).map Grid.dense
  | .view src attrs rows cls mask, a =>
    if (Grid.view src attrs rows cls mask).allAttributes.any fun r => r.equals a
    then Res.ok (.view src attrs rows (cls.set a true) mask) else Res.err
  | .filt f src cls unf, a =>
    if flag unf a then Res.ok (.filt f src (cls.set a true) unf)
    else
      let hits := f.attrs.filter fun b => b.old.equals a || b.new.equals a
      if hits.isEmpty then Res.err
      else Res.ok (.filt f src (hits.foldl (fun m b => m.set b.new true) cls) unf)

/-- `RemoveClassAttribute` on a view (base/view.go:171-174) and on filtered instances
(base/filtered.go:111-123). -/
def removeClassAttribute : Grid → Attr → Res Grid
  | .dense d, a => (d.removeClassAttribute a).map Grid.dense
  | .view src attrs rows cls mask, a => Res.ok (.view src attrs rows (cls.set a false) mask)
  | .filt f src cls unf, a =>
    if flag unf a then Res.ok (.filt f src (cls.set a false) unf)
    else
      match f.attrs.find? fun b => b.old.equals a || b.new.equals a with
      | some b => Res.ok (.filt f src (cls.set b.new false) unf)
      | none => Res.err

/-- The unfiltered set built by `NewLazilyFilteredInstances`, base/filtered.go:29-36. -/
def unfilteredMap (src : Grid) (f : Filter) : GoMap Attr Bool :=
  f.attrs.foldl (fun m a => m.set a.old false)
    (src.allAttributes.foldl (fun m a => m.set a true) [])

/-- `NewLazilyFilteredInstances`, base/filtered.go:24-52; the errors of `AddClassAttribute` at line
49 are ignored by the code. -/
def newFiltered (src : Grid) (f : Filter) : Grid :=
  src.allClassAttributes.foldl (fun g a =>
    match g.addClassAttribute a with
    | .ok g' => g'
    | _ => g) (.filt f src [] (unfilteredMap src f))

end Grid

end Golearn
