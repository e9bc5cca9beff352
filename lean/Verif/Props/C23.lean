import Verif.Proofs.Instances

/-! # C23: the class distribution counts every row -/

namespace Golearn

/-- `GetClassDistribution` on a table of `n` rows with one class attribute, whose labels in rows
`0, 1, ...` are `k 0, k 1, ...`: for every label the count returned is the number of rows with that
label, a label is present iff it occurs, and the counts add up to `n`. -/
theorem C23_class_distribution (fo : FloatOps) (g : Grid) (n : Nat) (P : g.Presents n) (a : Attr)
    (hc : g.allClassAttributes = [a]) (ha : a ∈ g.allAttributes) (k : Nat → String)
    (hk : ReadsAs fo g a n k) :
    ∃ m, getClassDistribution fo g = Res.ok m ∧
      (∀ c, (m.get? c).getD 0 = countRows n fun r => k r == c) ∧
      (∀ c, (m.get? c).isSome ↔ ∃ r, r < n ∧ k r = c) ∧
      (m.map Prod.snd).sum = n := by
  obtain ⟨m, e1, e2, e3, e4⟩ := classDistLoop_spec (fo := fo) (g := g) (k := k) (List.range n)
    (fun r hr => getClass_ok P hc ha hk (List.mem_range.1 hr)) []
  refine ⟨m, ?_, ?_, ?_, ?_⟩
  · simp only [getClassDistribution, P.rows, e1]
  · intro c; rw [e2 c]; simp [GoMap.get?, countRows]
  · intro c
    rw [e4 c]
    simp [GoMap.get?]
  · rw [e3]; simp

/-- `GetClassDistributionAfterSplit`: for every value of the split attribute and every class label,
the number of rows with that value and that label. -/
theorem C23_after_split (fo : FloatOps) (g : Grid) (n : Nat) (P : g.Presents n) (a c : Attr)
    (hc : g.allClassAttributes = [c]) (hcm : c ∈ g.allAttributes) (ha : a ∈ g.allAttributes)
    (k x : Nat → String) (hk : ReadsAs fo g c n k) (hx : ReadsAs fo g a n x) :
    ∃ m, distAfterSplit fo g a = Res.ok m ∧
      ∀ v l, (((m.get? v).getD []).get? l).getD 0 = countRows n fun r => x r == v && k r == l := by
  obtain ⟨s, hs, hsa, hg⟩ := P.read a ha
  obtain ⟨m, e1, e2⟩ := splitLoop_spec (fo := fo) (g := g) (s := s) (key := a.getString fo)
    (sv := x) (cv := k) (List.range n)
    (fun r hr => ⟨_, hg r (List.mem_range.1 hr), hx r (List.mem_range.1 hr),
      getClass_ok P hc hcm hk (List.mem_range.1 hr)⟩) []
  refine ⟨m, ?_, ?_⟩
  · simp only [distAfterSplit, hs, Res.orPanic, Res.bind_ok, P.rows, e1]
  · intro v l; rw [e2 v l]; simp [GoMap.get?, countRows]

/-- `GetClassDistributionAfterThreshold` on a float attribute: for `"1"` (value above the threshold)
and `"0"` (the other rows), and every class label, the number of such rows with that label. -/
theorem C23_after_threshold (fo : FloatOps) (g : Grid) (n : Nat) (P : g.Presents n) (a c : Attr)
    (hc : g.allClassAttributes = [c]) (hcm : c ∈ g.allAttributes) (ha : a ∈ g.allAttributes)
    (hf : a.isFloat = true) (val : U64) (k : Nat → String) (x : Nat → U64)
    (hk : ReadsAs fo g c n k) (hx : ∀ r, r < n → unpackFloatBits (g.cell a r) = Res.ok (x r)) :
    ∃ m, distAfterThreshold fo g a val = Res.ok m ∧
      ∀ l, (((m.get? "1").getD []).get? l).getD 0 = countRows n (fun r => fo.gt (x r) val && k r == l) ∧
        (((m.get? "0").getD []).get? l).getD 0 = countRows n (fun r => !fo.gt (x r) val && k r == l) := by
  obtain ⟨s, hs, hsa, hg⟩ := P.read a ha
  obtain ⟨m, e1, e2⟩ := splitLoop_spec (fo := fo) (g := g) (s := s) (key := thresholdKey fo val)
    (sv := fun r => if fo.gt (x r) val then "1" else "0") (cv := k) (List.range n)
    (fun r hr => ⟨_, hg r (List.mem_range.1 hr), by
      simp only [thresholdKey, hx r (List.mem_range.1 hr), Res.map_ok],
      getClass_ok P hc hcm hk (List.mem_range.1 hr)⟩) []
  refine ⟨m, ?_, ?_⟩
  · simp only [distAfterThreshold, hs, Res.orPanic, Res.bind_ok, hf, if_true, P.rows, e1]
  · intro l
    rw [e2 "1" l, e2 "0" l]
    simp only [GoMap.get?, Option.getD_none, Nat.zero_add, countRows]
    constructor
    · congr 1
      apply List.filter_congr
      intro r _
      cases fo.gt (x r) val <;> simp
    · congr 1
      apply List.filter_congr
      intro r _
      cases fo.gt (x r) val <;> simp

section Examples
private def fo0 : FloatOps := ⟨fun _ _ => "", fun u v => v.toNat < u.toNat⟩
private def aC : Attr := ⟨0, .cat "c" ["x", "y"]⟩
private def aF : Attr := ⟨1, .float "f" 2⟩
private def ops1 : List Op :=
  [.add aC, .add aF, .addClass aC, .extend 3, .set 0 1 (packU64 1), .set 1 0 (packU64 7),
   .set 1 1 (packU64 8), .set 1 2 (packU64 9)]
set_option synthInstance.maxSize 1024 in
set_option synthInstance.maxHeartbeats 200000 in
/-- Three rows labelled x, y, x: the three distributions, and the class attribute is unique. -/
example : ((run 4096 ops1).bind fun st =>
      (getClassDistribution fo0 (.dense st.d)).bind fun m =>
      (distAfterThreshold fo0 (.dense st.d) aF 7).bind fun t =>
      (distAfterSplit fo0 (.dense st.d) aC).map fun s =>
        (decide ((Grid.dense st.d).allClassAttributes = [aC]), m, t, s)) =
    Res.ok (true, [("x", 2), ("y", 1)], [("0", [("x", 1)]), ("1", [("y", 1), ("x", 1)])],
      [("x", [("x", 2)]), ("y", [("y", 1)])]) := by decide +kernel
end Examples

end Golearn
