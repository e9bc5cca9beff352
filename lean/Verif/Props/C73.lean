import Verif.Proofs.DbscanProps
import Verif.Model.History
import Mathlib.Algebra.Order.Ring.Rat
import Mathlib.Algebra.Order.Group.Unbundled.Abs

/-! # C73: DBSCAN's clusters -/

namespace Golearn

/-- The data that `DBSCAN` clusters: the numbers of the chosen columns. Points are within eps if the distance of their rows is at most eps; the
distance of a point to itself is taken to be zero, and that of two points is computed once, from the one with the smaller number. `fs` are the
chosen attributes in the order in which they are resolved. -/
theorem C73_grid {K : Type} [Zero K] [LE K] [DecidableLE K] (g : Grid) (n : Nat) (P : g.Presents n) (T : g.typed n)
    (srt : List Spec → List Spec) (hsrt : ∀ l, (srt l).Perm l) (val : U64 → K) (metric : List K → List K → K)
    (attrs : List Attr) (hf : g.Finds attrs) (hfl : ∀ a ∈ attrs, a.isFloat = true) (hne : attrs ≠ []) (hn : 0 < n)
    (eps : K) (minCount : Int) :
    ∃ (fs : List Attr) (near : Nat → Nat → Bool), fs.Perm attrs ∧
      dbscan srt val metric g attrs eps minCount = dbscanNear n near minCount ∧
      (∀ p q, near p q = near q p) ∧ (∀ p, near p p = true ↔ 0 ≤ eps) ∧
      ∀ p q, p < q → q < n → (near p q = true ↔ metric (g.point val fs p) (g.point val fs q) ≤ eps) := by
  obtain ⟨fs, hfs, e⟩ := dbscan_grid P T srt hsrt val metric hf hfl hne hn eps minCount
  refine ⟨fs, _, hfs, e, ?_, ?_, ?_⟩
  · intro p q
    unfold pairDist
    rcases Nat.lt_trichotomy p q with h | h | h
    · rw [if_pos h, if_neg (by omega), if_pos h]
    · subst h; rfl
    · rw [if_neg (by omega), if_pos h, if_pos h]
  · intro p
    simp [pairDist]
  · intro p q hpq hq
    rw [decide_eq_true_iff, pairDist, if_pos hpq]
    simp [hq, show p < n by omega]

/-- It needs numeric attributes. -/
theorem C73_needs_numbers {K : Type} [Zero K] [LE K] [DecidableLE K] (g : Grid) (srt : List Spec → List Spec) (val : U64 → K)
    (metric : List K → List K → K) (attrs : List Attr) (a : Attr) (ha : a ∈ attrs) (hfl : a.isFloat = false) (eps : K) (minCount : Int) :
    dbscan srt val metric g attrs eps minCount = Res.err := by
  unfold dbscan allRows
  rw [if_neg (by
    intro h
    rw [List.all_eq_true] at h
    rw [h a ha] at hfl
    cases hfl)]
  rfl

/-- The loops end for all distances and parameters: DBSCAN returns clusters or panics. -/
theorem C73_terminates (rows : Nat) (near : Nat → Nat → Bool) (minCount : Int) : dbscanNear rows near minCount ≠ Res.err := by
  rcases dbscan_exact (rows := rows) (near := near) (minCount := minCount) with ⟨_, h⟩ | ⟨_, s, h, _⟩ <;> rw [h] <;> simp

/-- The clusters that are returned: the numbers of the clusters are distinct, no point is in two clusters or twice in one, all points are
rows, and every cluster has at least `minCount` points, all of them reached from one core point. -/
theorem C73_clusters (rows : Nat) (near : Nat → Nat → Bool) (minCount : Int) (cs : GoMap Nat (List Nat))
    (h : dbscanNear rows near minCount = Res.ok cs) :
    (cs.map Prod.fst).Nodup ∧ (cs.Pairwise fun p q => ∀ x, x ∈ p.2 → x ∉ q.2) ∧
    ∀ p ∈ cs, p.2.Nodup ∧ minCount ≤ (p.2.length : Int) ∧ (∀ x ∈ p.2, x < rows) ∧
      ∃ o ∈ p.2, Core rows near minCount o ∧ ∀ x ∈ p.2, Reach rows near minCount o x := by
  obtain ⟨h1, h2⟩ := dbscan_disjoint h
  refine ⟨h1, h2, ?_⟩
  intro p hp
  obtain ⟨a, b, t, ht, hm⟩ := dbscan_members h hp
  refine ⟨a, b, fun x hx => reach_lt ht.1 ((hm x).mp hx).1.2.2.1, t, (hm t).mpr ⟨ht, ?_⟩, ht.2.1, fun x hx => ((hm x).mp hx).1.2.2.1⟩
  intro hl
  rcases dbscan_exact (rows := rows) (near := near) (minCount := minCount) with ⟨_, h'⟩ | ⟨h', _⟩
  · rw [h] at h'; cases h'
  · exact h' t ht.1 ⟨ht, hl⟩

/-- DBSCAN panics exactly if some core point, which no core point of a smaller number reaches, is within eps of a point of a smaller number
that is not core and that no core point of a still smaller number reaches. -/
theorem C73_panics_iff (rows : Nat) (near : Nat → Nat → Bool) (minCount : Int) :
    dbscanNear rows near minCount = Res.panic ↔
      ∃ p < rows, Core rows near minCount p ∧ (∀ o < p, Core rows near minCount o → ¬ Reach rows near minCount o p) ∧
        ∃ q < p, near q p = true ∧ ¬ Core rows near minCount q ∧ ∀ o < q, Core rows near minCount o → ¬ Reach rows near minCount o q := by
  rcases dbscan_exact (rows := rows) (near := near) (minCount := minCount) with ⟨⟨t, ht, h1, h2⟩, h⟩ | ⟨hno, s, h, _⟩
  · refine ⟨fun _ => ⟨t, ht, h1.2.1, h1.2.2.2, ?_⟩, fun _ => h⟩
    obtain ⟨q, hq, he, rfl | hn⟩ := h2
    · omega
    · exact ⟨q, hq, hn, he⟩
  · constructor
    · intro hp; rw [h] at hp; cases hp
    · rintro ⟨p, hp, hc, ho, q, hq, hn, he⟩
      exact absurd ⟨⟨hp, hc, Relation.ReflTransGen.refl, ho⟩, q, hq, he, Or.inr hn⟩ (hno p hp)

/-- The property: DBSCAN never panics. -/
def DbscanNeverFails : Prop := ∀ (rows : Nat) (near : Nat → Nat → Bool) (minCount : Int), (∀ p q, near p q = near q p) →
  (∀ p, near p p = true) → ∃ cs, dbscanNear rows near minCount = Res.ok cs

/-- Three points on a line at distance one from the next, eps one and at least three points: the first point is an end of the line and has
too few neighbours, the second is a core point, and DBSCAN panics. -/
theorem C73_refuted : ¬ DbscanNeverFails := by
  intro h
  obtain ⟨cs, h⟩ := h 3 (fun p q => decide (p ≤ q + 1 ∧ q ≤ p + 1)) 3 (by intro p q; simp [and_comm]) (by simp)
  have : dbscanNear 3 (fun p q => decide (p ≤ q + 1 ∧ q ≤ p + 1)) 3 = Res.panic := by decide +kernel
  rw [this] at h; cases h

namespace Witness
def dX : Attr := ⟨1, .float "x" 2⟩
def dbOps : List Op := [.add dX, .extend 3, .set 0 0 (packU64 1), .set 0 1 (packU64 2), .set 0 2 (packU64 3)]
end Witness

open Witness in
/-- The same on a data set. -/
theorem C73_grid_panics : ∃ st, run 4096 dbOps = Res.ok st ∧
    dbscan id (fun u => (u.toNat : Int)) (fun a b => |a.headD 0 - b.headD 0|) (.dense st.d) [dX] 1 3 = Res.panic ∧
    dbscan id (fun u => (u.toNat : Int)) (fun a b => |a.headD 0 - b.headD 0|) (.dense st.d) [dX] 1 2 = Res.ok [(1, [0, 1, 2])] := by
  refine ⟨_, rfl, ?_, ?_⟩
  all_goals decide +kernel

/-- It does not panic if every point within eps of a core point is core, in particular with `minCount` at most two. Missing from the English
claim: other data (`C73_panics_iff`). -/
theorem C73_partial (rows : Nat) (near : Nat → Nat → Bool) (minCount : Int) (hsym : ∀ p q, near p q = near q p)
    (hb : (∀ p q, p < rows → q < rows → Core rows near minCount p → near p q = true → Core rows near minCount q) ∨
      (minCount ≤ 2 ∧ ∀ p, near p p = true)) : ∃ cs, dbscanNear rows near minCount = Res.ok cs := by
  have hb' := hb.elim id fun h => smallCount hsym h.2 h.1
  obtain ⟨h1, h2⟩ := noBorder (hsym := hsym) hb'
  obtain ⟨cs, h, _⟩ := dbscan_density h1 h2
  exact ⟨cs, h⟩

example : (∀ p q, (fun p q => decide (p ≤ q + 1 ∧ q ≤ p + 1)) p q = (fun p q : Nat => decide (p ≤ q + 1 ∧ q ≤ p + 1)) q p) ∧
    dbscanNear 4 (fun p q => decide (p ≤ q + 1 ∧ q ≤ p + 1 ∧ (p = 3 ↔ q = 3))) 2 = Res.ok [(1, [0, 1, 2])] := by
  refine ⟨by intro p q; simp [and_comm], by decide +kernel⟩

end Golearn
