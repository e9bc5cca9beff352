import Verif.Proofs.RuleSelect
import Verif.Proofs.TreeExamples
import Mathlib.Analysis.SpecialFunctions.Log.Base

/-! # A rule generator for examples -/

namespace Golearn

variable {K : Type} [Field K] [LinearOrder K] [IsStrictOrderedRing K]

/-- Bit patterns are taken as natural numbers; the midpoints of even numbers are exact. -/
def exEnv (lg : K → K) : RuleEnv K where
  fo := ⟨fun _ _ => "", fun u v => decide (v.toNat < u.toNat)⟩
  feq u v := u == v
  mid u v := BitVec.ofNat 64 ((u.toNat + v.toNat) / 2)
  lg := lg
  sortRefs l := l.insertionSort fun p q => p.1.toNat ≤ q.1.toNat
  order := someOrder
  cands l := l

instance : Std.Total fun p q : U64 × String => p.1.toNat ≤ q.1.toNat := ⟨fun _ _ => Nat.le_total _ _⟩
instance : IsTrans (U64 × String) fun p q => p.1.toNat ≤ q.1.toNat := ⟨fun _ _ _ h h' => Nat.le_trans h h'⟩

omit [IsStrictOrderedRing K] in
theorem exEnv_ok {lg : K → K} (h : Logarithm lg) : (exEnv lg).Ok where
  log := h
  sort l := by
    refine ⟨List.perm_insertionSort _ l, fun _ => ?_⟩
    refine (List.pairwise_insertionSort (fun p q : U64 × String => p.1.toNat ≤ q.1.toNat) l).imp ?_
    intro p q hpq
    simp only [exEnv, decide_eq_false_iff_not]
    omega
  rowOrder := someOrder_rowOrder
  cands _ := List.Perm.refl _

omit [IsStrictOrderedRing K] in
theorem exEnv_mid (lg : K → K) (u v : U64) : ((exEnv lg).mid u v).toNat = (u.toNat + v.toNat) / 2 := by
  simp only [exEnv, BitVec.toNat_ofNat]
  have := u.isLt; have := v.isLt
  omega

/-- The value of a pattern taken as a natural number. -/
def natVal (u : U64) : K := (u.toNat : K)

theorem exEnv_exact (lg : K → K) : ExactOn (exEnv lg) natVal fun u => u.toNat % 2 = 0 where
  gt u v _ _ := by simp [exEnv, natVal]
  feq u v _ _ := by
    simp only [exEnv, beq_iff_eq, natVal, Nat.cast_inj]
    exact ⟨fun h => by rw [h], fun h => BitVec.eq_of_toNat_eq h⟩
  same u v _ _ h := by
    simp only [natVal, Nat.cast_inj] at h ⊢
    rw [exEnv_mid]; omega
  between u v hu hv h := by
    simp only [natVal, Nat.cast_lt] at h ⊢
    rw [exEnv_mid]; omega

theorem logb_logarithm : Logarithm (Real.logb 2) where
  mul x y hx hy := Real.logb_mul hx.ne' hy.ne'
  neg x h0 h1 := Real.logb_neg (by norm_num) h0 h1

/-- Does every float cell hold an even number? -/
def evenCheck (d : Dense) (n : Nat) : Bool :=
  d.allAttributes.all fun a => !a.isFloat || (List.range n).all fun r =>
    match unpackFloatBits ((Grid.dense d).cell a r) with
    | .ok u => u.toNat % 2 == 0
    | _ => false

theorem floatsIn_even {d : Dense} {n : Nat} (h : evenCheck d n = true) :
    (Grid.dense d).FloatsIn n fun u => u.toNat % 2 = 0 := by
  intro a ha hf r hr
  have h := List.all_eq_true.1 h a ha
  rw [hf, Bool.not_true, Bool.false_or, List.all_eq_true] at h
  have h := h r (List.mem_range.2 hr)
  cases hu : unpackFloatBits ((Grid.dense d).cell a r) with
  | ok u => rw [hu] at h; exact ⟨u, rfl, by simpa using h⟩
  | err => rw [hu] at h; cases h
  | panic => rw [hu] at h; cases h

/-- Are the bit patterns in the float columns different? -/
def repeatCheck (d : Dense) (n : Nat) : Bool :=
  d.allAttributes.all fun a => !a.isFloat || decide ((List.range n).map fun r => (Grid.dense d).bitsAt a r).Nodup

theorem noRepeats_check {d : Dense} {n : Nat} {S : U64 → Prop} (hS : (Grid.dense d).FloatsIn n S)
    (h : repeatCheck d n = true) : (Grid.dense d).NoRepeats n (natVal (K := K)) := by
  intro a ha hf r s hr hs heq
  have h := List.all_eq_true.1 h a ha
  rw [hf, Bool.not_true, Bool.false_or, decide_eq_true_eq] at h
  obtain ⟨u, hu, _⟩ := hS a ha hf r hr
  obtain ⟨v, hv, _⟩ := hS a ha hf s hs
  have e : u = v := by
    simp only [Grid.number, hu, hv, natVal, Nat.cast_inj] at heq
    exact BitVec.eq_of_toNat_eq heq
  have := List.inj_on_of_nodup_map h (List.mem_range.2 hr) (List.mem_range.2 hs)
  exact this (by simp only [Grid.bitsAt, hu, hv, e])

end Golearn
