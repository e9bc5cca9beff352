import Verif.Proofs.TreePredict

/-! # Trees for dense instances: the conditions in a form that can be computed -/

namespace Golearn

/-- A row order every grid allows. -/
def someOrder : Grid → List Nat
  | .dense d => List.range d.maxRow
  | .view src _ rows _ mask => if mask then (rows.getD []).map Prod.fst else someOrder src
  | .filt _ src _ _ => someOrder src

theorem someOrder_rowOrder (g : Grid) : g.RowOrder (someOrder g) := by
  induction g with
  | dense d => rfl
  | view src as rows cls mask ih =>
    unfold Grid.RowOrder someOrder
    cases mask
    · simpa using ih
    · simp
  | filt f src cls unf ih => exact ih

/-- The generator that picks the first attribute that is not the class attribute, with a threshold. -/
def firstAttribute (val : U64) (g : Grid) : Res (Option Rule) :=
  Res.ok ((g.allAttributes.find? fun a => decide (a ∉ g.allClassAttributes)).map fun a => ⟨a, val⟩)

theorem floatsIn_true {g : Grid} {n : Nat} (T : g.typed n) : g.FloatsIn n fun _ => True := by
  intro a ha hf r hr
  obtain ⟨u, hu⟩ := unpack_typed T ha hf hr
  exact ⟨u, hu, trivial⟩

theorem firstAttribute_chooses (fo : FloatOps) (S : U64 → Prop) (val : U64) : ChoosesAttribute fo S (firstAttribute val) := by
  intro g n lab cls D _
  refine ⟨_, rfl, ?_⟩
  intro rule h
  rw [Option.map_eq_some_iff] at h
  obtain ⟨a, h1, rfl⟩ := h
  refine ⟨List.mem_of_find?_eq_some h1, ?_⟩
  have := List.find?_some h1
  simp only [decide_eq_true_eq, D.classAttr, List.mem_singleton] at this
  exact this

/-- The conditions of `TreeData` for dense instances. -/
def treeCheck (fo : FloatOps) (d : Dense) (n : Nat) (labels : List String) (cls : Attr) : Bool :=
  decide (0 < n ∧ labels.length = n ∧ (Grid.dense d).size.1 = d.allAttributes.length ∧ 2 ≤ d.allAttributes.length ∧
    d.allClassAttributes = [cls] ∧ cls ∈ d.allAttributes) &&
  (d.allAttributes.all fun a => (List.range n).all fun r => (a.getString fo ((Grid.dense d).cell a r)).isOk) &&
  ((List.range n).all fun r => decide (cls.getString fo ((Grid.dense d).cell cls r) = Res.ok (labels.getD r "")))

theorem readable_check {fo : FloatOps} {g : Grid} {n : Nat}
    (h : (g.allAttributes.all fun a => (List.range n).all fun r => (a.getString fo (g.cell a r)).isOk) = true) :
    g.Readable fo n := by
  intro a ha r hr
  have := List.all_eq_true.1 (List.all_eq_true.1 h a ha) r (List.mem_range.2 hr)
  cases e : a.getString fo (g.cell a r) with
  | ok s => exact ⟨s, rfl⟩
  | err => rw [e] at this; cases this
  | panic => rw [e] at this; cases this

theorem treeData_dense {fo : FloatOps} {d : Dense} {n : Nat} {labels : List String} {cls : Attr} (D : DenseOK n d)
    (h : treeCheck fo d n labels cls = true) :
    TreeData fo (.dense d) n (fun r => labels.getD r "") cls := by
  unfold treeCheck at h
  simp only [Bool.and_eq_true, decide_eq_true_eq] at h
  obtain ⟨⟨⟨h1, _, h3, h4, h5, h6⟩, h7⟩, h8⟩ := h
  refine ⟨D.presents, D.1, D.typed, readable_check h7, h1, h3, h4, h5, h6, ?_⟩
  intro r hr
  have := List.all_eq_true.1 h8 r (List.mem_range.2 hr)
  exact of_decide_eq_true this

/-- The conditions of `TreeInput` for dense instances. -/
def inputCheck (fo : FloatOps) (d : Dense) (n : Nat) (as : List Attr) : Bool :=
  (match d.allClassAttributes with
    | [⟨_, .cat _ vs⟩] => decide (vs.length + n ≤ 2 ^ 64)
    | _ => false) &&
  (d.allAttributes.all fun a => (List.range n).all fun r => (a.getString fo ((Grid.dense d).cell a r)).isOk) &&
  (as.all fun a => d.allAttributes.any fun b => b.equals a && decide (d.getAttribute a = d.getAttribute b))

theorem treeInput_dense {fo : FloatOps} {d : Dense} {n : Nat} {as : List Attr} (D : DenseOK n d)
    (h : inputCheck fo d n as = true) : TreeInput fo (.dense d) n as := by
  unfold inputCheck at h
  simp only [Bool.and_eq_true] at h
  obtain ⟨⟨h1, h2⟩, h3⟩ := h
  refine ⟨D.presents, D.typed, readable_check h2, ?_, ?_⟩
  · show ∃ p nm vs, d.allClassAttributes = _ ∧ _
    split at h1
    · rename_i p nm vs heq
      exact ⟨p, nm, vs, heq, by simpa using h1⟩
    · cases h1
  · intro a ha
    have := List.all_eq_true.1 h3 a ha
    obtain ⟨b, hb, h⟩ := List.any_eq_true.1 this
    simp only [Bool.and_eq_true, decide_eq_true_eq] at h
    exact ⟨b, hb, h.1, h.2⟩

end Golearn
