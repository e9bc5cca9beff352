import Verif.Proofs.KnnSearch
import Mathlib.Data.List.Sort

/-! # C43: the selected neighbours are the nearest rows -/

namespace Golearn

variable {R : Type} [LinearOrder R] [Zero R]

/-- The first `k` keys of a map sorted by value (`SortIntMap`) are `k` different keys with ascending values,
and no key that is left out has a smaller value. The order of iteration over the map is the order of the
list, so it is arbitrary; ties may be broken either way. -/
theorem C43_select (srt : (Nat → R) → List Nat → List Nat) (hs : SortsKeys srt) (m : GoMap Nat R)
    (hn : (m.map Prod.fst).Nodup) (k : Nat) (hk : k ≤ m.length) :
    let out := (sortIntMap srt m).take k
    out.length = k ∧ out.Nodup ∧ (∀ i ∈ out, i ∈ m.map Prod.fst) ∧
    (out.Pairwise fun i j => (m.get? i).getD 0 ≤ (m.get? j).getD 0) ∧
    ∀ j ∈ m.map Prod.fst, j ∉ out → ∀ i ∈ out, (m.get? i).getD 0 ≤ (m.get? j).getD 0 :=
  sortIntMap_spec hs m hn k hk

/-- The linear search over training data that presents `n` rows: for numeric attributes the grid has, the
result is the `k` nearest of the rows, whatever order rows and attributes come in, and whatever distances
are left over from the row predicted before. -/
theorem C43_linear_search (train : Grid) (n : Nat) (P : train.Presents n) (T : train.typed n) (num : List Attr)
    (hnum : ∀ a ∈ num, a ∈ train.allAttributes ∧ a.isFloat = true) (srt : List Spec → List Spec)
    (hsrt : PositionSort srt) (val : U64 → R) (dist : List R → List R → R)
    (sortKeys : (Nat → R) → List Nat → List Nat) (hs : SortsKeys sortKeys) (order : List Nat)
    (ho : train.RowOrder order) (k : Nat) (hk : k ≤ n) (x : List R) (old : GoMap Nat R)
    (hold : (old.map Prod.fst).Nodup ∧ ∀ r ∈ old.map Prod.fst, r < n) :
    ∃ specs fs m' out, train.resolve srt num = Res.ok specs ∧ fs.Perm num ∧
      linearSearch val dist sortKeys k train specs order x old = Res.ok (m', out) ∧
      Nearest ((List.range n).map (train.point val fs)) dist x k out := by
  obtain ⟨fs, hfs, hsp⟩ := positionSort_attrs hsrt num
  obtain ⟨sp, t1, t2⟩ := features_spec P T (num := num)
    (fun a ha => ⟨a, (hnum a ha).1, C28_equals_refl a, rfl⟩) (fun a ha => (hnum a ha).2)
  obtain ⟨t3, t4⟩ := t2 fs (fun a ha => hfs.subset ha)
  obtain ⟨m', out, h1, _, h3⟩ := linearSearch_spec t3 (fun r hr => ⟨(t4 r hr).1, (t4 r hr).2 val⟩)
    (P.order _ ho) dist hs hk x old hold
  refine ⟨fs.map sp, fs, m', out, ?_, hfs, h1, h3⟩
  unfold Grid.resolve
  rw [t1, Res.map_ok, hsp]

/-- Asking for more neighbours than there are rows panics: the sorted keys are sliced beyond their end. -/
theorem C43_too_many_panics (train : Grid) (n : Nat) (P : train.Presents n) (T : train.typed n) (num : List Attr)
    (hnum : ∀ a ∈ num, a ∈ train.allAttributes ∧ a.isFloat = true) (srt : List Spec → List Spec)
    (hsrt : PositionSort srt) (val : U64 → R) (dist : List R → List R → R)
    (sortKeys : (Nat → R) → List Nat → List Nat) (hs : SortsKeys sortKeys) (order : List Nat)
    (ho : train.RowOrder order) (k : Nat) (hk : n < k) (x : List R) :
    ∃ specs, train.resolve srt num = Res.ok specs ∧
      linearSearch val dist sortKeys k train specs order x [] = Res.panic := by
  obtain ⟨fs, hfs, hsp⟩ := positionSort_attrs hsrt num
  obtain ⟨sp, t1, t2⟩ := features_spec P T (num := num)
    (fun a ha => ⟨a, (hnum a ha).1, C28_equals_refl a, rfl⟩) (fun a ha => (hnum a ha).2)
  obtain ⟨t3, t4⟩ := t2 fs (fun a ha => hfs.subset ha)
  obtain ⟨m', out, h1, h2, _⟩ := linearSearch_spec t3 (fun r hr => ⟨(t4 r hr).1, (t4 r hr).2 val⟩)
    (P.order _ ho) dist hs (Nat.le_refl n) x [] ⟨by simp, by simp⟩
  refine ⟨fs.map sp, ?_, ?_⟩
  · unfold Grid.resolve
    rw [t1, Res.map_ok, hsp]
  · unfold linearSearch at h1 ⊢
    obtain ⟨m2, g1, g2⟩ := Res.bind_eq_ok.1 h1
    simp only at g2
    split at g2
    · cases g2
    · rw [Res.ok.injEq, Prod.mk.injEq] at g2
      have hle : (m2.map Prod.fst).length ≤ n := by
        have hsub : m2.map Prod.fst ⊆ List.range n := fun r hr => List.mem_range.2 (h2.2 r (g2.1 ▸ hr))
        have := (List.subperm_of_subset (g2.1 ▸ h2.1) hsub).length_le
        simpa using this
      have hl : (sortIntMap sortKeys m2).length ≤ n := by
        unfold sortIntMap
        rw [(hs _ _).1.length_eq]; exact hle
      rw [g1, Res.bind_ok]
      simp only
      rw [if_pos (by omega)]

section Examples
/-- Insertion sort by value: a sort that meets `SortsKeys`. -/
def keySort {R : Type} [LinearOrder R] (v : Nat → R) (l : List Nat) : List Nat := l.insertionSort fun i j => v i ≤ v j

theorem keySort_sorts {R : Type} [LinearOrder R] : SortsKeys (keySort (R := R)) := by
  intro v l
  have : Std.Total (fun i j : Nat => v i ≤ v j) := ⟨fun _ _ => le_total _ _⟩
  have : IsTrans Nat (fun i j : Nat => v i ≤ v j) := ⟨fun _ _ _ => le_trans⟩
  exact ⟨List.perm_insertionSort _ _, List.pairwise_insertionSort _ _⟩

/-- Four distances with a tie, three of them selected. -/
example : ((sortIntMap keySort [(4, 7), (2, 1), (9, 7), (0, 3)]).take 3) = [2, 0, 4] ∧
    (([(4, 7), (2, 1), (9, 7), (0, 3)] : GoMap Nat Int).map Prod.fst).Nodup := by decide +kernel
end Examples

end Golearn
