import Verif.Props.C73

/-! # C87: DBSCAN finds the density-connected groups -/

namespace Golearn

/-- The property: two points share a cluster exactly if some core point reaches both. -/
def FindsDensityGroups : Prop := ∀ (rows : Nat) (near : Nat → Nat → Bool) (minCount : Int) (cs : GoMap Nat (List Nat)),
  (∀ p q, near p q = near q p) → (∀ p, near p p = true) → dbscanNear rows near minCount = Res.ok cs →
    ∀ x y, (∃ p ∈ cs, x ∈ p.2 ∧ y ∈ p.2) ↔ DensityConnected rows near minCount x y

/-- Exactly what is returned, whatever the data: before clusters with too few points are removed, there is one cluster for every core point
that no earlier core point reaches, numbered from one in the order of these points. A point is in the cluster of the first core point that
reaches it, unless an earlier point that is not core, and that no core point before it reaches, is the point itself or within eps of it. -/
theorem C87_exact (rows : Nat) (near : Nat → Nat → Bool) (minCount : Int) (cs : GoMap Nat (List Nat))
    (h : dbscanNear rows near minCount = Res.ok cs) :
    ∃ all : GoMap Nat (List Nat), cs = (all.filter fun p => decide (minCount ≤ (p.2.length : Int))) ∧
      (∃ k, all.map Prod.fst = List.range' 1 k) ∧
      ∃ seeds : List Nat, seeds.Pairwise (· < ·) ∧ (∀ t, t ∈ seeds ↔ FirstCore rows near minCount t t) ∧
        List.Forall₂ (fun t m => m.Nodup ∧ ∀ x, x ∈ m ↔ FirstCore rows near minCount x t ∧ ¬ Lost rows near minCount x t)
          seeds (all.map Prod.snd) := dbscan_clusters h

example : dbscanNear 7 (fun p q => decide (p % 2 = q % 2)) 3 = Res.ok [(1, [0, 2, 4, 6]), (2, [1, 3, 5])] := by decide +kernel

/-- Points 1 to 4 are within eps of each other, and 0 of 4 only; at least three points. Point 4 is within eps of all points, and missing from
the cluster, because the search passed 0 first. -/
theorem C87_refuted : ¬ FindsDensityGroups := by
  intro h
  have h1 : dbscanNear 5 (fun p q => decide (p = q ∨ (1 ≤ p ∧ 1 ≤ q) ∨ (p = 0 ∧ q = 4) ∨ (p = 4 ∧ q = 0))) 3 = Res.ok [(1, [1, 2, 3])] := by
    decide +kernel
  have h2 := (h _ _ _ _ (by intro p q; rw [decide_eq_decide]; omega) (by simp) h1 1 4).mpr ⟨1, by decide, by unfold Core; decide +kernel,
    Relation.ReflTransGen.refl, Relation.ReflTransGen.single ⟨by unfold Core; decide +kernel, by decide, by decide⟩⟩
  revert h2
  decide +kernel

/-- If no point that a core point reaches is lost, and core points that reach a common point reach each other, the clusters are exactly the
groups. Missing from the English claim: other data (`C87_exact`). -/
theorem C87_groups_partial (rows : Nat) (near : Nat → Nat → Bool) (minCount : Int)
    (hlost : ∀ x s, FirstCore rows near minCount x s → ¬ Lost rows near minCount x s)
    (hone : ∀ o o' x, o < rows → o' < rows → Core rows near minCount o → Core rows near minCount o' → Reach rows near minCount o x →
      Reach rows near minCount o' x → Reach rows near minCount o o') :
    ∃ cs, dbscanNear rows near minCount = Res.ok cs ∧
      ∀ x y, (∃ p ∈ cs, x ∈ p.2 ∧ y ∈ p.2) ↔ DensityConnected rows near minCount x y := dbscan_density hlost hone

/-- Both conditions hold if every point within eps of a core point is core. -/
theorem C87_no_border_partial (rows : Nat) (near : Nat → Nat → Bool) (minCount : Int) (hsym : ∀ p q, near p q = near q p)
    (hb : ∀ p q, p < rows → q < rows → Core rows near minCount p → near p q = true → Core rows near minCount q) :
    ∃ cs, dbscanNear rows near minCount = Res.ok cs ∧
      ∀ x y, (∃ p ∈ cs, x ∈ p.2 ∧ y ∈ p.2) ↔ DensityConnected rows near minCount x y :=
  dbscan_density (noBorder (hsym := hsym) hb).1 (noBorder (hsym := hsym) hb).2

example : (∀ p q, p < 7 → q < 7 → Core 7 (fun p q => decide (p % 2 = q % 2)) 3 p → (fun p q => decide (p % 2 = q % 2)) p q = true →
    Core 7 (fun p q => decide (p % 2 = q % 2)) 3 q) := by
  intro p q _ _ hc hn
  unfold Core at hc ⊢
  simp only [decide_eq_true_eq] at hn
  have e : (fun p q => decide (p % 2 = q % 2)) q = (fun p q : Nat => decide (p % 2 = q % 2)) p := by funext x; simp [hn]
  rw [e]
  exact hc

/-- With `minCount` at most two, whatever the data: the groups are the connected components of the points within eps of another. -/
theorem C87_two_partial (rows : Nat) (near : Nat → Nat → Bool) (minCount : Int) (hsym : ∀ p q, near p q = near q p)
    (hrefl : ∀ p, near p p = true) (hm : minCount ≤ 2) :
    ∃ cs, dbscanNear rows near minCount = Res.ok cs ∧
      ∀ x y, (∃ p ∈ cs, x ∈ p.2 ∧ y ∈ p.2) ↔ DensityConnected rows near minCount x y :=
  C87_no_border_partial rows near minCount hsym fun p q hp hq => smallCount hsym hrefl hm p q hp hq

example : dbscanNear 6 (fun p q => decide (p = q ∨ p % 3 = q % 3)) 2 = Res.ok [(1, [0, 3]), (2, [1, 4]), (3, [2, 5])] := by decide +kernel

end Golearn
