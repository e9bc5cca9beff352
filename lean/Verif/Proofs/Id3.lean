import Verif.Model.Id3
import Verif.Proofs.Prune
import Verif.Props.C39
import Verif.Proofs.Swap

/-! # Fitting an ID3 tree with pruning -/

namespace Golearn

theorem get?_mem_pair {κ ν : Type} [DecidableEq κ] (m : GoMap κ ν) (k : κ) (v : ν) (h : m.get? k = some v) : (k, v) ∈ m := by
  induction m with
  | nil => cases h
  | cons p ps ih =>
    obtain ⟨a, b⟩ := p
    unfold GoMap.get? at h
    split at h
    · rename_i he
      simp only [Option.some.injEq] at h
      subst h
      have : a = k := by first | exact he | exact (beq_iff_eq.1 he) | exact he.symm
      subst this
      exact List.mem_cons_self
    · exact List.mem_cons_of_mem _ (ih h)

/-- Pruning keeps what the nodes say about the training rows. -/
theorem prune_keeps (e : PruneEnv) (key : Rule → Nat → String) (lab : Nat → String) (p : Rule → Prop) (t : Tree) :
    ∀ path g t', pruneTree e t path g = Res.ok t' →
      (∀ rows, t.Fits key lab rows → t'.Fits key lab rows) ∧ (t.AllRules p → t'.AllRules p) := by
  induction t with
  | leaf d c =>
    intro path g t' h
    simp only [pruneTree, Res.ok.injEq] at h
    subst h
    exact ⟨fun _ h => h, fun h => h⟩
  | split d c r keys child ih =>
    intro path g t' h
    rw [pruneTree] at h
    obtain ⟨sub, h1, h⟩ := Res.bind_eq_ok.1 h
    obtain ⟨ch, h2, h⟩ := Res.bind_eq_ok.1 h
    obtain ⟨b, h3, h⟩ := Res.bind_eq_ok.1 h
    obtain ⟨nw, h4, h⟩ := Res.map_eq_ok.1 h
    have hch : ∀ k ∈ keys, (∀ rows, (child k).Fits key lab rows → ((GoMap.get? ch k).getD (child k)).Fits key lab rows) ∧
        ((child k).AllRules p → ((GoMap.get? ch k).getD (child k)).AllRules p) := by
      intro k hk
      cases hg : GoMap.get? ch k with
      | none => exact ⟨fun _ h => h, fun h => h⟩
      | some tk =>
        obtain ⟨x, hx, hxy⟩ := forall₂_mem_right ((mapRes_eq_ok _ _ _).1 h2) _ (get?_mem_pair _ _ _ hg)
        simp only [Option.getD_some]
        cases hs : GoMap.get? sub x with
        | none =>
          simp only [hs, Res.ok.injEq, Prod.mk.injEq] at hxy
          obtain ⟨rfl, rfl⟩ := hxy
          exact ⟨fun _ h => h, fun h => h⟩
        | some s =>
          simp only [hs] at hxy
          split at hxy
          · simp only [Res.ok.injEq, Prod.mk.injEq] at hxy
            obtain ⟨rfl, rfl⟩ := hxy
            exact ⟨fun _ h => h, fun h => h⟩
          · obtain ⟨u, hu, e⟩ := Res.map_eq_ok.1 hxy
            simp only [Prod.mk.injEq] at e
            obtain ⟨rfl, rfl⟩ := e
            exact ih x _ _ _ hu
    split at h
    · subst h
      refine ⟨?_, ?_⟩
      · intro rows hf
        obtain ⟨a1, a2, a3, a4, a5⟩ := hf
        exact ⟨a1, a2, a3, a4, fun k hk => (hch k hk).1 _ (a5 k hk)⟩
      · intro hr
        exact ⟨hr.1, fun k hk => (hch k hk).2 (hr.2 k hk)⟩
    · subst h
      exact ⟨fun rows hf => hf.1, fun _ => trivial⟩

/-- Without rows to prune with, every split is given up. -/
theorem prune_no_rows (e : PruneEnv) (d : GoMap String Nat) (c : String) (r : Rule) (keys : List String) (child : String → Tree)
    (path : List String) (g : Grid) (hg : g.size.2 = 0) (t' : Tree) (h : pruneTree e (.split d c r keys child) path g = Res.ok t') :
    t' = .leaf d c := by
  rw [pruneTree] at h
  obtain ⟨sub, -, h⟩ := Res.bind_eq_ok.1 h
  obtain ⟨ch, -, h⟩ := Res.bind_eq_ok.1 h
  obtain ⟨b, hb, h⟩ := Res.bind_eq_ok.1 h
  obtain ⟨nw, -, h⟩ := Res.map_eq_ok.1 h
  have : b = none := by
    unfold treeAccuracy at hb
    obtain ⟨p, -, hp⟩ := Res.bind_eq_ok.1 hb
    unfold getConfusionMatrix at hp
    rw [hg] at hp
    split at hp
    · rename_i cf he
      split at he
      · cases he
      · simp only [List.range_zero, confLoop, Res.ok.injEq] at he
        subst he
        simp only [Res.ok.injEq] at hp
        rw [← hp]
        rfl
    · simp only [Res.ok.injEq] at hp
      rw [← hp]
      rfl
    · cases hp
  subst this
  have hf : flt nw none = false := by cases nw <;> rfl
  simp only [hf] at h
  exact h.symm

/-- A view of some rows of training data is training data. -/
theorem treeData_shows {fo : FloatOps} {g v : Grid} {n : Nat} {lab : Nat → String} {cls : Attr} (D : TreeData fo g n lab cls) {rows : List Nat}
    (hr : ∀ r ∈ rows, r < n) (hne : rows ≠ []) (hp : v.Presents rows.length) (ha : v.allAttributes.Perm g.allAttributes)
    (hv : ∀ a ∈ g.allAttributes, ∀ i (h : i < rows.length), v.cell a i = g.cell a rows[i])
    (hw : v.size.1 = v.allAttributes.length) (hc : v.allClassAttributes = [cls]) :
    TreeData fo v rows.length (fun i => lab (rows.getD i 0)) cls where
  rows := hp
  distinct := distinct_perm ha.symm D.distinct
  typed := by
    intro a haa i hi
    have haa := ha.subset haa
    rw [hv a haa i hi]
    exact D.typed a haa _ (hr _ (List.getElem_mem hi))
  readable := by
    intro a haa i hi
    have haa := ha.subset haa
    rw [hv a haa i hi]
    exact D.readable a haa _ (hr _ (List.getElem_mem hi))
  nonempty := List.length_pos_iff.2 hne
  width := hw
  wide := by rw [ha.length_eq]; exact D.wide
  classAttr := hc
  classIn := ha.symm.subset D.classIn
  label := by
    intro i hi
    show _ = Res.ok (lab (rows.getD i 0))
    rw [hv _ D.classIn i hi, List.getD_eq_getElem _ _ hi]
    exact D.label _ (hr _ (List.getElem_mem hi))

theorem visible_class {g : Grid} {rows : List Nat} {specs : List Spec} {cls : Attr} (hc : g.allClassAttributes = [cls])
    (h : cls ∈ (Grid.viewFromVisible g rows specs).allClassAttributes) : (Grid.viewFromVisible g rows specs).allClassAttributes = [cls] := by
  have e : (Grid.viewFromVisible g rows specs).allClassAttributes =
      ((Grid.classFromSrc (some specs) [cls]).filter fun p => p.2).map Prod.fst := by
    rw [← hc]; rfl
  rw [e] at h ⊢
  simp only [Grid.classFromSrc, List.foldl_cons, List.foldl_nil] at h ⊢
  split at h
  · rename_i hm
    rw [if_pos hm]
    rfl
  · cases h

/-- The parts of a split of a data set. -/
theorem split_parts {n : Nat} {d : Dense} (D : DenseOK n d) {cls : Attr} (hc : d.allClassAttributes = [cls]) (hin : cls ∈ d.allAttributes)
    {srt : List Spec → List Spec} (hsrt : ∀ l, (srt l).Perm l) (draw coin : Nat → Nat) (hdraw : ∀ i, draw i ≤ i) (pct : Int) :
    ∃ d' specs, DenseOK n d' ∧ d'.allAttributes = d.allAttributes ∧ d'.allClassAttributes = d.allClassAttributes ∧
      trainTestSplit srt draw coin pct (.dense d) = Res.ok
        (Grid.viewFromVisible (.dense d') ((List.range n).filter fun i => decide ((coin i : Int) > pct)) specs,
          Grid.viewFromVisible (.dense d') ((List.range n).filter fun i => !decide ((coin i : Int) > pct)) specs, .dense d') ∧
      (∃ σ : Equiv.Perm Nat, (∀ r, r < n → σ r < n) ∧ ∀ a ∈ d.allAttributes, ∀ r, r < n → (Grid.dense d').cell a r = (Grid.dense d).cell a (σ r)) ∧
      ∀ rows : List Nat, (∀ r ∈ rows, r < n) → ShowsRows (.dense d') (Grid.viewFromVisible (.dense d') rows specs) rows ∧
        (Grid.viewFromVisible (.dense d') rows specs).allClassAttributes = [cls] ∧
        (Grid.viewFromVisible (.dense d') rows specs).size.1 = (Grid.viewFromVisible (.dense d') rows specs).allAttributes.length := by
  have hsz : d.size.2 = n := D.presents.rows
  have hsw : ∀ p ∈ (List.range d.size.2).map (fun i => (i, draw i)), p.1 < n ∧ p.2 < n := by
    intro p hp
    obtain ⟨i, hi, rfl⟩ := List.mem_map.1 hp
    have := List.mem_range.1 hi
    have := hdraw i
    simp only
    omega
  obtain ⟨d', e, D', A, C, _, _, V⟩ := swapAll_spec hsrt _ D hsw
  have hC : d'.allClassAttributes = d.allClassAttributes := by unfold Dense.allClassAttributes; rw [C]
  have hA : ∀ a ∈ d'.allAttributes, a ∈ (Grid.dense d').allAttributes := fun a h => h
  obtain ⟨l, hl⟩ := D'.presents.resolve_total hA
  have hres : (Grid.dense d').resolve srt (Grid.dense d').allAttributes = Res.ok (srt l) := by
    unfold Grid.resolve
    rw [show (Grid.dense d').resolveUnsorted (Grid.dense d').allAttributes = Res.ok l from hl]
    rfl
  have hrows : (Grid.dense d').size.2 = n := D'.presents.rows
  refine ⟨d', srt l, D', A, hC, ?_, ⟨_, fun r hr => srcRow_lt hsw hr, V⟩, ?_⟩
  · simp only [trainTestSplit, shuffle, shuffleDense, e, Res.map_ok, Res.bind_ok, hres, hrows]
  · intro rows hr
    have hcd : (Grid.dense d').allClassAttributes = [cls] := hC.trans hc
    have hcin : cls ∈ (Grid.dense d').allAttributes := by show cls ∈ d'.allAttributes; rw [A]; exact hin
    have S := visible_shows D'.presents D'.1 (by rw [hcd]; intro x hx; simp only [List.mem_singleton] at hx; subst hx; exact hcin)
      hsrt hres hr
    refine ⟨S, visible_class hcd ((S.2.2.1 cls).2 (by rw [hcd]; simp)), ?_⟩
    simp [Grid.viewFromVisible, Grid.size, Grid.allAttributes]

end Golearn
