import Verif.Spec.NBColumns
import Verif.Proofs.KnnColumns
import Verif.Props.C69

/-! # Proofs: naive Bayes with columns in another order -/

namespace Golearn

theorem mapOver_inst {fo : FloatOps} {g : Grid} {f : Nat} {k : Nat → String} {vals : Nat → Res (List Bytes)} (l : List Nat)
    (hk : ∀ r ∈ l, getClass fo g r = Res.ok (k r)) (s : NBCounts) {p : NBCounts × Bool}
    (h : mapOver vals (nbCallback fo g f) s l = Res.ok p) : p.1.inst = (l.map k).foldl incr s.inst := by
  induction l generalizing s with
  | nil => cases h; rfl
  | cons r l ih =>
    simp only [mapOver] at h
    obtain ⟨v, _, h⟩ := Res.bind_eq_ok.1 h
    obtain ⟨q, hq, h⟩ := Res.bind_eq_ok.1 h
    unfold nbCallback at hq
    rw [hk r (by simp), Res.bind_ok] at hq
    obtain ⟨docs, _, rfl⟩ := Res.map_eq_ok.1 hq
    exact ih (fun x hx => hk x (by simp [hx])) _ h

section
variable {K : Type} [Field K] [LinearOrder K]

/-- The labels of a trained model are in the order in which the rows have them. -/
theorem nbFit_inst {fo : FloatOps} {g : Grid} {n : Nat} {k : Nat → String} (D : BinaryData fo g n k)
    {srt : List Spec → List Spec} (hsrt : ∀ l, (srt l).Perm l) {order : List Nat} (ho : g.RowOrder order)
    {ordC : List String → List String} {old : GoMap String (List K)} {nb : NB K} (h : nbFit fo srt order ordC old g = Res.ok nb) :
    nb.inst = (order.map k).foldl incr [] := by
  have P := D.table
  obtain ⟨specs, s, h1, h2, h3, h4, C⟩ := nb_counts D hsrt ho
  rw [nbFit_eq D ordC old h1 h4] at h
  obtain ⟨cp, _, rfl⟩ := Res.map_eq_ok.1 h
  obtain ⟨sp, r1, r2⟩ := finds_spec P (finds_self (features_sub g))
  have hs : specs = srt (g.nonClass.map sp) := by
    rw [Grid.resolve, r1, Res.map_ok] at h1
    exact (Res.ok.inj h1).symm
  subst hs
  obtain ⟨i1, i2⟩ := P.iter (srt (g.nonClass.map sp)) (by
    intro s hs
    obtain ⟨a, ha, rfl⟩ := List.mem_map.1 ((hsrt _).mem_iff.1 hs)
    exact (r2 a ha).2.1)
  rw [Grid.mapOverRows, i1, Res.bind_ok] at h4
  obtain ⟨c, c1, c2, c3⟩ := D.cls
  have hk : ∀ r ∈ order, getClass fo g r = Res.ok (k r) := fun r hr =>
    getClass_ok P c1 c2 c3 (List.mem_range.1 ((P.order order ho).mem_iff.1 hr))
  have hlt : ∀ r ∈ order, r < n := fun r hr => List.mem_range.1 ((P.order order ho).mem_iff.1 hr)
  obtain ⟨s', l1, _⟩ := counted_rows (fo := fo) (k := k) (cols := (srt (g.nonClass.map sp)).map Spec.attr)
    (vals := g.rowVals (srt (g.nonClass.map sp))) (by
      intro r hr
      rw [i2 r hr, List.map_map]
      rfl) (fun a ha r hr => D.bytes a (h2.mem_iff.1 ha) r hr)
    (fun r hr => getClass_ok P c1 c2 c3 hr) order hlt [] ⟨[], []⟩ (counted_start g k _)
  rw [h2.length_eq] at l1
  rw [l1] at h4
  have := mapOver_inst order hk _ l1
  cases h4
  exact this

theorem docsWith_same {g g' : Grid} {n : Nat} {as : List Attr} (h : SameFeatures g g' n as) (k : Nat → String) (c : String) {a : Attr}
    (ha : a ∈ as) : docsWith g' n k c a = docsWith g n k c a := by
  unfold docsWith countRows
  congr 1
  refine List.filter_congr fun r hr => ?_
  rw [h a ha r (List.mem_range.1 hr)]

/-- The scores of a class are the same. -/
theorem logPosterior_same (log : K → K) {g g' what what' : Grid} {n m : Nat} (hp : g'.nonClass.Perm g.nonClass)
    (hT : SameFeatures g g' n g.nonClass) (hW : SameFeatures what what' m g.nonClass) (k : Nat → String) {r : Nat} (hr : r < m)
    (c : String) : logPosterior log g' n k what' r c = logPosterior log g n k what r c := by
  unfold logPosterior
  congr 1
  rw [(hp.map _).sum_eq]
  congr 1
  refine List.map_congr_left fun a ha => ?_
  unfold likelihood smoothed
  rw [hW a ha r hr, docsWith_same hT k c ha]

/-- What a trained model says about a row. -/
theorem nbPredictOne_eq [IsStrictOrderedRing K] (log : K → K) (low : K) {ordP : List String → List String} (hordP : ∀ l, (ordP l).Perm l)
    {nb : NB K} {g : Grid} {n : Nat} {k : Nat → String} {cols : List Attr} (T : nb.TrainedOn g n k cols) {what : Grid} {r' : Nat}
    (hb : ∀ a ∈ g.nonClass, ∃ b, what.cell a r' = [b]) :
    nbPredictOne log low ordP nb (cols.map fun a => what.cell a r') = if g.nonClass = [] then Res.panic else
      Res.ok (argmaxLoop (fun c => logPosterior log g n k what r' c) (ordP (nb.inst.map Prod.fst)) ("", low)).1 := by
  have hl : (cols.map fun a => what.cell a r').length = nb.features := by
    rw [List.length_map, T.order.length_eq, T.count]
  unfold nbPredictOne
  by_cases h0 : g.nonClass = []
  · rw [if_pos h0, if_pos (by rw [T.count, h0]; rfl)]
  · rw [if_neg h0, if_neg (by rw [T.count]; exact fun h => h0 (List.length_eq_zero_iff.1 h)), if_neg (by rw [hl]; simp)]
    rw [nbBest_eq log nb (cols.map fun a => what.cell a r') (fun c => logPosterior log g n k what r' c) _ (by
      intro c hc
      obtain ⟨r, hr, rfl⟩ := (T.classes c).1 ((hordP _).mem_iff.1 hc)
      exact nbScore_eq T hb hr) ("", low), Res.map_ok]

end
end Golearn
