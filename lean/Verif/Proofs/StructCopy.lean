import Verif.Proofs.DenseTable
import Verif.Spec.SaveGrid

/-! # Structural copies -/

namespace Golearn

/-- The structural copy of a table: no rows, the same attributes at the same addresses, the same class attributes. -/
theorem structural_copy (pg : Nat) (g : Grid) (hr : ∀ a ∈ g.allAttributes, ∃ s, g.getAttribute a = Res.ok s) (hd : g.distinct) (classes : List Attr)
    (hc : ∀ c ∈ classes, c ∈ g.allAttributes) :
    ∃ d s1 s2, copyStructure pg g classes = Res.ok (d, s1, s2) ∧ DenseOK 0 d ∧ d.maxRow = 0 ∧
      d.allAttributes.Perm g.allAttributes ∧ (∀ x, x ∈ d.allClassAttributes ↔ x ∈ classes) ∧ d.allClassAttributes.Nodup := by
  obtain ⟨look, hlook⟩ : ∃ look : Attr → Spec, ∀ a ∈ g.allAttributes, g.getAttribute a = Res.ok (look a) := by
    refine ⟨fun a => match g.getAttribute a with | .ok s => s | _ => ⟨none, 0, a⟩, ?_⟩
    intro a ha
    obtain ⟨s, h1⟩ := hr a ha
    simp only [h1]
  obtain ⟨ops, hops⟩ : ∃ ops, ops = g.allAttributes.map Op.add ++ classes.map Op.addClass := ⟨_, rfl⟩
  have hbasic : ∀ op ∈ ops, basicOp op = true := by
    intro op hop
    rw [hops, List.mem_append, List.mem_map, List.mem_map] at hop
    rcases hop with ⟨a, _, rfl⟩ | ⟨a, _, rfl⟩ <;> rfl
  have hadd : addedAttrs ops = g.allAttributes := by
    rw [hops, addedAttrs_append]
    have h1 : ∀ as : List Attr, addedAttrs (as.map Op.add) = as := by
      intro as
      induction as with
      | nil => rfl
      | cons a as ih => simp only [addedAttrs, List.map_cons, List.filterMap_cons] at ih ⊢; rw [ih]
    have h2 : addedAttrs (classes.map Op.addClass) = [] := by simp [addedAttrs, List.filterMap_map]
    rw [h1, h2, List.append_nil]
  have hrows : totalRows ops = 0 := by
    have h0 : ∀ l : List Op, (∀ op ∈ l, rowsOf op = 0) → totalRows l = 0 := by
      intro l hl
      induction l with
      | nil => rfl
      | cons x xs ih =>
        have := ih (fun o ho => hl o (by simp [ho]))
        simp only [totalRows, List.map_cons, List.sum_cons] at this ⊢
        rw [this, hl x (by simp)]
    apply h0
    intro op hop
    rw [hops, List.mem_append, List.mem_map, List.mem_map] at hop
    rcases hop with ⟨a, _, rfl⟩ | ⟨a, _, rfl⟩ <;> rfl
  obtain ⟨st, hst⟩ := run_of_legal pg ops hbasic (by
    rw [hops, legalSeq_append]
    exact ⟨legal_adds [] (by simp) _, legal_classes _ _⟩)
  have hdist : (addedAttrs ops).Pairwise (fun a b => a.equals b = false) := by rw [hadd]; exact hd
  have D := denseOK_run hbasic hst hdist
  rw [hrows] at D
  have hperm : st.d.allAttributes.Perm g.allAttributes := by
    obtain ⟨I, _, _⟩ := run_inv pg ops st (basic_noLate hbasic) hst
    obtain ⟨_, hat⟩ := run_basic pg ops st hbasic hst
    rw [← hadd, ← hat]
    exact I.listed
  obtain ⟨hcl, hcn⟩ := C09_class_attributes pg ops st hbasic hst hdist
  rw [run_eq, hops, runFrom_append] at hst
  obtain ⟨st1, h1, hrun⟩ := Res.bind_eq_ok.1 hst
  obtain ⟨c1, _⟩ := copyLoop_run pg g look g.allAttributes Dense.new [] [] hlook
  rw [show (⟨Dense.new, []⟩ : St) = St.init from rfl, h1] at c1
  obtain ⟨p, hp1, hp2⟩ := res_map_ok_of c1
  subst hp2
  rw [addClasses_run] at hrun
  simp only [Res.ok.injEq] at hrun
  subst hrun
  refine ⟨addClasses p.1 classes, p.2.1, p.2.2, by rw [copyStructure, hp1]; rfl, D, ?_, hperm, ?_, hcn⟩
  · have := D.presents.rows
    exact this
  · intro x
    rw [hcl]
    constructor
    · rintro ⟨pre, b, post, e, hx, heq, _⟩
      have hb : b ∈ classes := by
        have : Op.addClass b ∈ ops := by rw [e]; simp
        rw [hops, List.mem_append, List.mem_map, List.mem_map] at this
        rcases this with ⟨a, _, h⟩ | ⟨a, ha, h⟩
        · cases h
        · cases h; exact ha
      have hxa : x ∈ g.allAttributes := by
        rw [← hadd, e, addedAttrs_append]
        exact List.mem_append_left _ hx
      have : x = b := by
        by_contra hne
        have h1 : ∀ l : List Attr, l.Pairwise (fun a b => a.equals b = false) → x ∈ l → b ∈ l → False := by
          intro l hl hxl hbl
          obtain ⟨i, hi, hiu⟩ := List.getElem_of_mem hxl
          obtain ⟨j, hj, hju⟩ := List.getElem_of_mem hbl
          rw [List.pairwise_iff_getElem] at hl
          rcases Nat.lt_trichotomy i j with h | h | h
          · have := hl i j hi hj h
            rw [hiu, hju, heq] at this; cases this
          · subst h; exact hne (by rw [← hiu, ← hju])
          · have := hl j i hj hi h
            rw [hiu, hju, C28_equals_symm x b heq] at this; cases this
        exact h1 _ hd hxa (hc b hb)
      exact this ▸ hb
    · intro hx
      obtain ⟨l1, l2, e⟩ := List.append_of_mem hx
      refine ⟨g.allAttributes.map Op.add ++ l1.map Op.addClass, x, l2.map Op.addClass, ?_, ?_, C28_equals_refl x, ?_⟩
      · rw [hops, e]; simp
      · rw [addedAttrs_append]
        refine List.mem_append_left _ ?_
        have : ∀ as : List Attr, addedAttrs (as.map Op.add) = as := by
          intro as
          induction as with
          | nil => rfl
          | cons a as ih => simp only [addedAttrs, List.map_cons, List.filterMap_cons] at ih ⊢; rw [ih]
        rw [this]
        exact hc x hx
      · intro c hc'
        simp at hc'

/-- The structural copy of a table whose attributes survive being written. -/
theorem structural_copy_kept {nilVals : Bool} {viaFloat : Int → Int} (pg : Nat) (g : Grid) (n : Nat) (K : GridKept nilVals viaFloat g n)
    (classes : List Attr) (hc : classes.Perm g.allClassAttributes) :
    ∃ d s1 s2, copyStructure pg g classes = Res.ok (d, s1, s2) ∧ GridKept nilVals viaFloat (.dense d) 0 ∧ d.maxRow = 0 ∧
      d.allAttributes.Perm g.allAttributes ∧ (∀ x, x ∈ d.allClassAttributes ↔ x ∈ g.allClassAttributes) := by
  obtain ⟨d, s1, s2, h1, D, h2, h3, h4, h5⟩ := structural_copy pg g (fun a ha => let ⟨s, h, _⟩ := K.presents.read a ha; ⟨s, h⟩) K.distinct classes
    fun c h => K.classes c (hc.subset h)
  have h4 : ∀ x, x ∈ d.allClassAttributes ↔ x ∈ g.allClassAttributes := fun x => (h4 x).trans hc.mem_iff
  refine ⟨d, s1, s2, h1, ⟨D.presents, D.1, D.typed, rfl, ?_, by decide, ?_, h5, ?_⟩, h2, h3, h4⟩
  · show d.allAttributes.length < _
    rw [h3.length_eq]; exact K.few
  · intro c hcc
    exact h3.symm.subset (K.classes c ((h4 c).1 hcc))
  · intro a ha
    exact K.kept a (h3.subset ha)

end Golearn
