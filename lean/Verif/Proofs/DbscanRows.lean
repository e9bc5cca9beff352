import Verif.Spec.DbscanRows
import Verif.Proofs.DbscanProps
import Mathlib.Data.List.Perm.Basic

/-! # Proofs: DBSCAN and the order of the rows -/

namespace Golearn

section
variable {n : Nat} {near near' : Nat → Nat → Bool} {σ : Equiv.Perm Nat} (hσ : ∀ r, r < n ↔ σ r < n)
  (h : ∀ p q, p < n → q < n → near' p q = near (σ p) (σ q)) {minCount : Int}
include hσ

theorem range_moved : ((List.range n).map σ).Perm (List.range n) := by
  rw [List.perm_ext_iff_of_nodup (List.nodup_range.map σ.injective) List.nodup_range]
  intro a
  simp only [List.mem_map, List.mem_range]
  constructor
  · rintro ⟨b, hb, rfl⟩
    exact (hσ b).1 hb
  · intro ha
    exact ⟨σ.symm a, by rw [hσ]; simpa using ha, by simp⟩

theorem moved_symm : ∀ r, r < n ↔ σ.symm r < n := by
  intro r
  rw [hσ (σ.symm r)]
  simp

include h

theorem near_symm_moved : ∀ p q, p < n → q < n → near p q = near' (σ.symm p) (σ.symm q) := by
  intro p q hp hq
  rw [h _ _ ((moved_symm hσ p).1 hp) ((moved_symm hσ q).1 hq)]
  simp

theorem core_moved {p : Nat} (hp : p < n) : Core n near' minCount p ↔ Core n near minCount (σ p) := by
  unfold Core
  have : (List.range n).countP (near' p) = (List.range n).countP (near (σ p)) := by
    rw [← (range_moved hσ).countP_eq (near (σ p)), List.countP_map]
    refine List.countP_congr fun q hq => ?_
    rw [h p q hp (List.mem_range.1 hq)]
    rfl
  rw [this]

theorem reach_moved {o x : Nat} (ho : o < n) (hr : Reach n near' minCount o x) : x < n ∧ Reach n near minCount (σ o) (σ x) := by
  induction hr with
  | refl => exact ⟨ho, Relation.ReflTransGen.refl⟩
  | tail _ hs ih =>
    obtain ⟨c, e, hb⟩ := hs
    refine ⟨hb, ih.2.tail ⟨(core_moved hσ h ih.1).1 c, ?_, (hσ _).1 hb⟩⟩
    rw [← h _ _ ih.1 hb]
    exact e

theorem connected_moved_of {x y : Nat} (hc : DensityConnected n near' minCount x y) :
    DensityConnected n near minCount (σ x) (σ y) := by
  obtain ⟨o, ho, c, a, b⟩ := hc
  exact ⟨σ o, (hσ o).1 ho, (core_moved hσ h ho).1 c, (reach_moved hσ h ho a).2, (reach_moved hσ h ho b).2⟩

theorem connected_moved {x y : Nat} : DensityConnected n near' minCount x y ↔ DensityConnected n near minCount (σ x) (σ y) := by
  refine ⟨connected_moved_of hσ h, fun hc => ?_⟩
  have := connected_moved_of (σ := σ.symm) (moved_symm hσ) (near_symm_moved hσ h) hc
  simpa using this
end

section
variable {K : Type} [Zero K] [LE K] [DecidableLE K] {g : Grid} {n : Nat}

/-- What DBSCAN does with a table, for a distance that depends neither on the order of the columns nor on which row is first. -/
theorem dbscan_within (P : g.Presents n) (T : g.typed n) {srt : List Spec → List Spec} (hsrt : ∀ l, (srt l).Perm l) {val : U64 → K}
    {metric : List K → List K → K} (hmetric : ColumnOrderFree metric) (hsym : ∀ x y, metric x y = metric y x)
    {attrs : List Attr} (hf : g.Finds attrs) (hfl : ∀ a ∈ attrs, a.isFloat = true) (hne : attrs ≠ []) (hn : 0 < n)
    (eps : K) (minCount : Int) :
    ∃ near : Nat → Nat → Bool, dbscan srt val metric g attrs eps minCount = dbscanNear n near minCount ∧
      (∀ p q, near p q = near q p) ∧ (∀ p, near p p = true ↔ 0 ≤ eps) ∧ ∀ p q, p < n → q < n → (near p q = true ↔ Within val metric g attrs eps p q) := by
  obtain ⟨fs, hfs, e⟩ := dbscan_grid P T srt hsrt val metric hf hfl hne hn eps minCount
  refine ⟨_, e, ?_, fun p => by simp [pairDist], ?_⟩
  · intro p q
    unfold pairDist
    rcases Nat.lt_trichotomy p q with h | h | h
    · rw [if_pos h, if_neg (by omega), if_pos h]
    · subst h; rfl
    · rw [if_neg (by omega), if_pos h, if_pos h]
  · intro p q hp hq
    have gd : ∀ i, i < n → ((List.range n).map (g.point val fs)).getD i [] = g.point val fs i := by
      intro i hi
      simp [hi]
    have hd : ∀ p q, metric (g.point val fs p) (g.point val fs q) =
        metric (attrs.map fun a => g.number val a p) (attrs.map fun a => g.number val a q) := fun p q =>
      hmetric fs attrs (fun a => g.number val a p) (fun a => g.number val a q) hfs
    rw [decide_eq_true_iff, pairDist, gd p hp, gd q hq, Within]
    rcases Nat.lt_trichotomy p q with h | h | h
    · rw [if_pos h, if_neg (by omega), hd]
    · subst h
      simp
    · rw [if_neg (by omega), if_pos h, if_neg (by omega), hd, hsym]

theorem core_row {near : Nat → Nat → Bool} {val : U64 → K} {metric : List K → List K → K} {attrs : List Attr} {eps : K} {minCount : Int}
    (h : ∀ p q, p < n → q < n → (near p q = true ↔ Within val metric g attrs eps p q)) {p : Nat} (hp : p < n) :
    Core n near minCount p ↔ CoreRow val metric g n attrs eps minCount p := by
  have hm : ∀ q, q ∈ (List.range n).filter (near p) ↔ q < n ∧ Within val metric g attrs eps p q := by
    intro q
    rw [List.mem_filter, List.mem_range]
    exact and_congr_right fun hq => h p q hp hq
  have hnd : ((List.range n).filter (near p)).Nodup := List.nodup_range.filter _
  unfold Core
  rw [List.countP_eq_length_filter]
  constructor
  · exact fun hc => ⟨_, hnd, hm, hc⟩
  · rintro ⟨l, h1, h2, h3⟩
    have : l.Perm ((List.range n).filter (near p)) := (List.perm_ext_iff_of_nodup h1 hnd).2 fun q => by rw [h2, hm]
    rw [← this.length_eq]
    exact h3
end

end Golearn
