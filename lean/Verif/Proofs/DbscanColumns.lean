import Verif.Spec.DbscanColumns
import Verif.Proofs.DbscanProps

/-! # Proofs: the columns DBSCAN looks at -/

namespace Golearn

section
variable {rows : Nat} {near near' : Nat → Nat → Bool} (h : ∀ p q, p < rows → q < rows → near' p q = near p q) {minCount : Int}
include h

theorem regionQuery_same {p : Nat} (hp : p < rows) (ret : Nat) : regionQuery rows near' p ret = regionQuery rows near p ret :=
  List.foldl_ext _ _ _ fun m q hq => by rw [h p q hp (List.mem_range.1 hq)]

theorem expandLoop_same (fuel i : Nat) (s : Expand) : expandLoop rows near' minCount fuel i s = expandLoop rows near minCount fuel i s := by
  induction fuel generalizing i s with
  | zero => rfl
  | succ fuel ih =>
    unfold expandLoop
    by_cases hi : i < rows
    · simp only [if_pos hi, regionQuery_same h hi, ih]
    · simp only [if_neg hi]

theorem dbscanLoop_same {l : List Nat} (hl : ∀ i ∈ l, i < rows) (s : Dbscan) :
    dbscanLoop rows near' minCount l s = dbscanLoop rows near minCount l s := by
  induction l generalizing s with
  | nil => rfl
  | cons i l ih =>
    have hi := hl i (by simp)
    have : dbscanStep rows near' minCount s i = dbscanStep rows near minCount s i := by
      unfold dbscanStep expandCluster
      simp only [regionQuery_same h hi, expandLoop_same h]
    simp only [dbscanLoop, this]
    congr 1
    funext s
    exact ih (fun j hj => hl j (by simp [hj])) s

/-- The clusters depend on which rows are within eps only. -/
theorem dbscanNear_same : dbscanNear rows near' minCount = dbscanNear rows near minCount := by
  unfold dbscanNear
  rw [dbscanLoop_same h fun i hi => List.mem_range.1 hi]
end

/-- Two tables whose distances compare with eps in the same way. -/
theorem dbscan_same {K : Type} [Zero K] [LE K] [DecidableLE K] {g g' : Grid} {n : Nat} (P : g.Presents n) (T : g.typed n)
    (P' : g'.Presents n) (T' : g'.typed n) {srt srt' : List Spec → List Spec} (hsrt : ∀ l, (srt l).Perm l) (hsrt' : ∀ l, (srt' l).Perm l)
    {val : U64 → K} {metric : List K → List K → K} {attrs attrs' : List Attr} (hp : attrs'.Perm attrs)
    (hf : g.Finds attrs) (hf' : g'.Finds attrs') (hfl : ∀ a ∈ attrs, a.isFloat = true) (hne : attrs ≠ []) (hn : 0 < n)
    {eps eps' : K} (minCount : Int) (h0 : (0 ≤ eps' ↔ 0 ≤ eps))
    (hd : ∀ fs fs' : List Attr, fs.Perm attrs → fs'.Perm fs → ∀ p q, p < n → q < n →
      (metric (g'.point val fs' p) (g'.point val fs' q) ≤ eps' ↔ metric (g.point val fs p) (g.point val fs q) ≤ eps)) :
    dbscan srt' val metric g' attrs' eps' minCount = dbscan srt val metric g attrs eps minCount := by
  obtain ⟨fs, hfs, e⟩ := dbscan_grid P T srt hsrt val metric hf hfl hne hn eps minCount
  obtain ⟨fs', hfs', e'⟩ := dbscan_grid P' T' srt' hsrt' val metric hf' (fun a ha => hfl a (hp.subset ha))
    (fun hn => hne (by subst hn; exact hp.nil_eq.symm)) hn eps' minCount
  rw [e, e']
  have hpp : fs'.Perm fs := (hfs'.trans hp).trans hfs.symm
  apply dbscanNear_same
  intro p q hpn hqn
  rw [decide_eq_decide]
  have key := hd fs fs' hfs hpp
  unfold pairDist
  have gd : ∀ (G : Grid) (l : List Attr) (i : Nat), i < n → ((List.range n).map (G.point val l)).getD i [] = G.point val l i := by
    intro G l i hi
    simp [hi]
  rw [gd _ _ _ hpn, gd _ _ _ hqn, gd _ _ _ hpn, gd _ _ _ hqn]
  rcases Nat.lt_trichotomy p q with hpq | hpq | hpq
  · rw [if_pos hpq, if_pos hpq]
    exact key p q hpn hqn
  · subst hpq
    simp only [lt_irrefl, if_false]
    exact h0
  · rw [if_neg (by omega), if_pos hpq, if_neg (by omega), if_pos hpq]
    exact key q p hqn hpn

end Golearn
