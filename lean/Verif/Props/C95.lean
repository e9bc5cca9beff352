import Verif.Props.C94
import Mathlib.Tactic.NormNum

/-! # C95: class weights of a linear support vector machine -/

namespace Golearn

section
variable {K : Type} [Field K] [LinearOrder K] [IsStrictOrderedRing K]

/-- Weights that are given are used: the penalty for errors on label `l` is multiplied by the weight number `l`, and labels
without a weight keep the penalty. -/
theorem C95_given (fo : FloatOps) (half : U64) (srt : List Spec → List Spec) (order : List Nat) (p : SvcParams K) (g : Grid)
    (ws : List K) (h : p.weights = some ws) :
    classWeights fo half srt order p g = Res.ok ws ∧ (∀ l : Nat, l < ws.length → svcWeight ws l = ws.getD l 0) ∧
      ∀ l : Int, l < 0 ∨ ws.length ≤ l → svcWeight ws l = 1 := by
  refine ⟨by unfold classWeights; rw [h], ?_, ?_⟩
  · intro l hl
    simp [svcWeight, List.getD_eq_getElem?_getD, hl]
  · intro l hl
    unfold svcWeight
    split
    · next h0 =>
      have : ws.length ≤ l.toNat := by omega
      simp [List.getD_eq_getElem?_getD, List.getElem?_eq_none this]
    · rfl

/-- An empty weight vector that is not nil makes `Fit` panic, whatever the data, unless reading it fails before. -/
theorem C95_empty (solve : Solver K) (toInt : K → Int) (fo : FloatOps) (half : U64) (val : U64 → K)
    (srt : List Spec → List Spec) (order0 order1 order2 : List Nat) (lr : Svc K) (g : Grid) (h : lr.params.weights = some []) :
    (svcFit solve toInt fo half val srt order0 order1 order2 lr g).isOk = false := by
  unfold svcFit
  rw [(C95_given fo half srt order0 lr.params g [] h).1, Res.bind_ok]
  cases problemVec val srt order1 g with
  | err => rfl
  | panic => rfl
  | ok rows =>
    rw [Res.bind_ok]
    cases linLabelVec val srt order2 g with
    | err => rfl
    | panic => rfl
    | ok y =>
      rw [Res.bind_ok]
      cases newProblem rows y 0 with
      | err => rfl
      | panic => rfl
      | ok prob => rfl

/-- The full claim: with automatic weighting the weight of the labels 0 and 1 is one over the number of rows with a class
value up to 0.5 and above. -/
def C95_automatic (K : Type) [Field K] [LinearOrder K] : Prop :=
  ∀ (fo : FloatOps) (half : U64) (srt : List Spec → List Spec) (_ : PositionSort srt) (order : List Nat) (p : SvcParams K) (g : Grid)
    (n : Nat) (_ : n ≠ 0) (_ : g.Presents n) (_ : g.typed n) (_ : g.RowOrder order) (cls : Attr)
    (_ : g.allClassAttributes = [cls]) (_ : cls ∈ g.allAttributes) (_ : cls.isFloat = true) (x : Nat → U64)
    (_ : ∀ r, r < n → unpackFloatBits (g.cell cls r) = Res.ok (x r)) (_ : p.weights = none) (_ : p.auto = true),
    ∃ w0 w1 : K, classWeights fo half srt order p g = Res.ok [w0, w1] ∧
      w0 * (countRows n fun r => !fo.gt (x r) half : Nat) = (if countRows n (fun r => !fo.gt (x r) half) = 0 then 0 else 1) ∧
      w1 * (countRows n fun r => fo.gt (x r) half : Nat) = (if countRows n (fun r => fo.gt (x r) half) = 0 then 0 else 1)

/-- Automatic weights are one over the numbers of rows that are counted for the two classes, and 1 for a class without rows; if the rows cannot be
counted, there are no weights. What is wrong in `C95_automatic_fails` is the counting. -/
theorem C95_inverse (fo : FloatOps) (half : U64) (srt : List Spec → List Spec) (order : List Nat) (p : SvcParams K) (g : Grid)
    (hw : p.weights = none) (ha : p.auto = true) (ws : List K) :
    classWeights fo half srt order p g = Res.ok ws ↔ ∃ (a b : Nat) (w0 w1 : K), binFloatDist fo half srt g order = Res.ok (a, b) ∧ ws = [w0, w1] ∧
      (a = 0 → w0 = 1) ∧ (0 < a → w0 * a = 1) ∧ (b = 0 → w1 = 1) ∧ (0 < b → w1 * b = 1) := by
  unfold classWeights weightsFromDist
  rw [hw, ha]
  simp only [if_true]
  have key : ∀ (c : Nat) (w : K), (c = 0 → w = 1) → (0 < c → w * c = 1) → w = if c = 0 then 1 else 1 / (c : K) := by
    intro c w h1 h2
    split
    · exact h1 ‹_›
    · rename_i hc
      have : (c : K) ≠ 0 := by exact_mod_cast hc
      rw [eq_div_iff this]
      exact h2 (by omega)
  rw [Res.map_eq_ok]
  constructor
  · rintro ⟨d, h1, rfl⟩
    have h : ∀ c : Nat, (c = 0 → (if c = 0 then 1 else 1 / (c : K)) = 1) ∧ (0 < c → (if c = 0 then 1 else 1 / (c : K)) * c = 1) := by
      intro c
      refine ⟨fun h => if_pos h, fun h => ?_⟩
      rw [if_neg (by omega)]
      exact div_mul_cancel₀ _ (by exact_mod_cast (show c ≠ 0 by omega))
    exact ⟨d.1, d.2, _, _, h1, rfl, (h _).1, (h _).2, (h _).1, (h _).2⟩
  · rintro ⟨a, b, w0, w1, h1, rfl, h2, h3, h4, h5⟩
    exact ⟨(a, b), h1, by rw [key a w0 h2 h3, key b w1 h4 h5]; rfl⟩

/-- What automatic weighting gives: both weights are 1, as without it, because only the first row is counted. -/
theorem C95_automatic_partial (fo : FloatOps) (half : U64) (srt : List Spec → List Spec) (hsrt : PositionSort srt)
    (order : List Nat) (p : SvcParams K) (g : Grid) (n : Nat) (hn : n ≠ 0) (P : g.Presents n) (T : g.typed n) (ho : g.RowOrder order)
    (cls : Attr) (hc : g.allClassAttributes = [cls]) (hcin : cls ∈ g.allAttributes) (hcf : cls.isFloat = true)
    (hw : p.weights = none) (ha : p.auto = true) :
    classWeights fo half srt order p g = Res.ok [1, 1] ∧
      classWeights fo half srt order { p with auto := false } g = Res.ok [1, 1] := by
  have hperm : ∀ l, (srt l).Perm l := by
    intro l
    obtain ⟨f, h1, h2⟩ := hsrt
    rw [h2]
    exact ((h1 l.length).filterMap _).trans (by rw [filterMap_range_getElem?])
  choose x hx using fun r : Fin n => unpack_typed T hcin hcf r.2
  obtain ⟨r, _, _, h1⟩ := C24_binary_float_partial fo half g n P srt hperm cls hcf hc hcin
    (fun r => if h : r < n then x ⟨r, h⟩ else 0) (by intro r hr; rw [dif_pos hr]; exact hx ⟨r, hr⟩) order ho
    (Nat.pos_of_ne_zero hn)
  constructor
  · unfold classWeights
    rw [hw, ha]
    simp only [if_true]
    unfold weightsFromDist
    rw [h1, Res.map_ok]
    generalize fo.gt _ half = b
    cases b <;> simp
  · unfold classWeights
    rw [hw]
    simp only [Bool.false_eq_true, if_false]
    unfold weightsFixed
    rw [hc]
    simp only
    rw [if_pos hcf]

end

section Examples
private def aF : Attr := ⟨0, .float "f" 2⟩
private def fo0 : FloatOps := ⟨fun _ _ => "", fun u v => v.toNat < u.toNat⟩
private def ops : List Op := [.add aF, .addClass aF, .extend 3, .set 0 1 (packU64 1), .set 0 2 (packU64 1)]

private theorem runC95 : ∃ st, run 4096 ops = Res.ok st ∧ (∀ op ∈ ops, basicOp op = true) ∧
    (addedAttrs ops).Pairwise (fun a b => a.equals b = false) ∧ totalRows ops = 3 ∧
    (Grid.dense st.d).allClassAttributes = [aF] ∧ (Grid.dense st.d).allAttributes = [aF] ∧
    (∀ r, r < 3 → unpackFloatBits ((Grid.dense st.d).cell aF r) = Res.ok (if r = 0 then 0 else 1)) ∧
    st.d.maxRow = 3 := by
  refine ⟨_, rfl, ?_, ?_, ?_, ?_, ?_, ?_, ?_⟩
  all_goals decide +kernel

/-- The full claim fails: for class values 0, 1 and 1 both weights are 1. -/
theorem C95_automatic_fails {K : Type} [Field K] [LinearOrder K] [IsStrictOrderedRing K] : ¬ C95_automatic K := by
  intro H
  obtain ⟨st, hrun, hb, hd, h3, hc, hall, hx, hm⟩ := runC95
  have D := denseOK_run hb hrun hd
  rw [h3] at D
  have hid : PositionSort id := ⟨List.range, fun n => List.Perm.refl _, fun l => (filterMap_range_getElem? l).symm⟩
  have ho : (Grid.dense st.d).RowOrder (List.range 3) := by
    change List.range 3 = List.range st.d.maxRow
    rw [hm]
  have hin : aF ∈ (Grid.dense st.d).allAttributes := by rw [hall]; simp
  obtain ⟨w0, w1, e1, _, e2⟩ := H fo0 0 id hid (List.range 3) ⟨3, none, 1, 1, true, true⟩ (.dense st.d) 3 (by omega) D.presents
    D.typed ho aF hc hin rfl _ hx rfl rfl
  have e3 := (C95_automatic_partial (K := K) fo0 0 id hid (List.range 3) ⟨3, none, 1, 1, true, true⟩ (.dense st.d) 3 (by omega)
    D.presents D.typed ho aF hc hin rfl rfl rfl).1
  rw [e3] at e1
  cases e1
  have h2 : countRows 3 (fun r => fo0.gt (if r = 0 then 0 else 1) 0) = 2 := by decide +kernel
  rw [h2] at e2
  norm_num at e2
end Examples

end Golearn
