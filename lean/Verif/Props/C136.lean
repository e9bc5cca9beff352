import Verif.Props.C15
import Verif.Props.C50
import Verif.Props.C130
import Verif.Proofs.Bits64
import Verif.Spec.Bits64
import Verif.Model.Convert
import Verif.Proofs.RuleExamples

/-! # C136: the numbers behind the stored bit patterns -/

namespace Golearn

/-- A pattern of sign, exponent and fraction with an exponent below the largest stands for the number of IEEE 754. -/
theorem C136_patterns (s e f : Nat) (hs : s < 2) (he : e < 2047) (hf : f < 2 ^ 52) :
    finite64 (BitVec.ofNat 64 (s * 2 ^ 63 + e * 2 ^ 52 + f)) = true ∧
      val64 (BitVec.ofNat 64 (s * 2 ^ 63 + e * 2 ^ 52 + f)) = binary64 s e f := by
  have hk : e * 2 ^ 52 + f < infMag := by unfold infMag; omega
  have hform : s * 2 ^ 63 + e * 2 ^ 52 + f = (e * 2 ^ 52 + f) + if decide (s = 1) then 2 ^ 63 else 0 := by
    rcases (by omega : s = 0 ∨ s = 1) with rfl | rfl
    · simp
    · simp; omega
  rw [hform]
  obtain ⟨m1, m2⟩ := mag_ofNat (hk.trans infMag_lt) (decide (s = 1))
  have hv : magVal (e * 2 ^ 52 + f) =
      if e = 0 then (f : ℚ) / 2 ^ 52 * 2 ^ (-1022 : ℤ) else (1 + (f : ℚ) / 2 ^ 52) * 2 ^ ((e : ℤ) - 1023) := by
    rcases e with _ | e
    · rw [Nat.zero_mul, Nat.zero_add, magVal_sub hf, if_pos rfl, div_mul_eq_mul_div, mul_div_assoc]
      congr 1
      rw [show (-1022 : ℤ) = 52 + -1074 by norm_num, zpow_add₀ (by norm_num)]
      rw [show (2 : ℚ) ^ (52 : ℤ) = 2 ^ 52 by norm_cast, mul_comm, mul_div_assoc, div_self (by norm_num), mul_one]
    · rw [show (e + 1) * 2 ^ 52 + f = 2 ^ 52 * (e + 1) + f by rw [mul_comm], magVal_norm hf, if_neg (Nat.succ_ne_zero e)]
      rw [show (((e + 1 : Nat) : ℤ) - 1023) = 52 + ((e : ℤ) - 1074) by push_cast; omega, zpow_add₀ (by norm_num),
        show (2 : ℚ) ^ (52 : ℤ) = 2 ^ 52 by norm_cast, ← mul_assoc]
      congr 1
      rw [add_mul, div_mul_cancel₀ _ (by norm_num), one_mul, Nat.cast_add, Nat.cast_pow, Nat.cast_ofNat]
  refine ⟨by unfold finite64; rw [m1, decide_eq_true_eq]; exact hk, ?_⟩
  unfold val64 binary64
  rw [m1, m2, hv]
  rcases (by omega : s = 0 ∨ s = 1) with rfl | rfl
  · rw [if_neg (by simp), pow_zero, one_mul]
  · rw [if_pos (by simp), pow_one, neg_one_mul]

/-- The finite patterns are the `float64` below 2^1024, one pattern for each but zero, and the pattern of the result of an
operation is that of the nearest `float64`, or an infinity if that is too large. -/
theorem C136_numbers :
    (∀ u, finite64 u = true → IsF64 (val64 u) ∧ |val64 u| < 2 ^ 1024) ∧
    (∀ x, IsF64 x → |x| < 2 ^ 1024 → ∃ u, finite64 u = true ∧ val64 u = x) ∧
    (∀ u v, val64 u = val64 v → u = v ∨ (val64 u = 0 ∧ u.toNat % 2 ^ 63 = 0 ∧ v.toNat % 2 ^ 63 = 0)) ∧
    (∀ x, |round64 x| < 2 ^ 1024 → finite64 (bits64 x) = true ∧ Nearest64 x (val64 (bits64 x))) ∧
    ∀ x, 2 ^ 1024 ≤ |round64 x| → isInf64 (bits64 x) = true ∧ (neg64 (bits64 x) = true ↔ x < 0) := by
  refine ⟨fun u hu => ⟨val64_isF64 u, by rw [abs_val64]; exact (finite_iff u).1 hu⟩, ?_, ?_, ?_, ?_⟩
  · intro x hx hb
    have hr := round64_fix hx
    obtain ⟨h1, h2⟩ := bits64_val (x := x) (by rw [hr]; exact hb)
    exact ⟨bits64 x, h1, by rw [h2, hr]⟩
  · intro u v h
    by_cases h0 : val64 u = 0
    · right
      have key : ∀ w : U64, val64 w = 0 → w.toNat % 2 ^ 63 = 0 := by
        intro w hw
        have : magVal (mag64 w) = magVal 0 := by rw [← abs_val64, hw, abs_zero, magVal_zero]
        exact magVal_mono.injective this
      exact ⟨h0, key u h0, key v (by rw [← h]; exact h0)⟩
    · exact Or.inl (val64_inj h h0)
  · intro x hx
    obtain ⟨h1, h2⟩ := bits64_val hx
    exact ⟨h1, by rw [h2]; exact round64_nearest x⟩
  · intro x hx
    have hs : (if round64 x < 0 then 2 ^ 63 else 0) = (if decide (round64 x < 0) then 2 ^ 63 else 0 : Nat) := by
      by_cases h0 : round64 x < 0 <;> simp [h0]
    obtain ⟨m1, m2⟩ := mag_ofNat infMag_lt (decide (round64 x < 0))
    unfold bits64
    rw [if_pos hx, hs]
    refine ⟨by simp only [isInf64, m1, decide_true], ?_⟩
    rw [m2, decide_eq_true_eq]
    constructor
    · intro h
      by_contra hc
      exact absurd (round64_nonneg (not_lt.1 hc)) (not_le.2 h)
    · intro h
      refine lt_of_le_of_ne (round64_le isF64_zero h.le) ?_
      intro h0
      rw [h0, abs_zero] at hx
      exact absurd hx (not_le.2 (by positivity))

/-- The comparisons of patterns are those of the numbers; nothing is greater than or equal to NaN, the infinities are above
and below all numbers. -/
theorem C136_comparisons :
    (∀ u v, finite64 u = true → finite64 v = true → (gt64 u v = true ↔ val64 v < val64 u) ∧ (eq64 u v = true ↔ val64 u = val64 v)) ∧
    (∀ u v, isNaN64 u = true → gt64 u v = false ∧ gt64 v u = false ∧ eq64 u v = false ∧ eq64 v u = false) ∧
    ∀ u v, isInf64 u = true → finite64 v = true → gt64 u v = !neg64 u ∧ gt64 v u = neg64 u := by
  refine ⟨fun u v hu hv => ⟨gt64_finite hu hv, eq64_finite hu hv⟩, ?_, ?_⟩
  · intro u v h
    have hn : num64 u = none := by unfold num64; rw [if_pos h]
    unfold gt64 eq64
    rw [hn]
    refine ⟨rfl, ?_, rfl, ?_⟩ <;> cases num64 v <;> rfl
  · intro u v hu hv
    have hm : mag64 u = infMag := by simpa [isInf64] using hu
    have hn : num64 u = some (if neg64 u then ⊥ else ((⊤ : WithTop ℚ) : WithBot (WithTop ℚ))) := by
      unfold num64
      rw [if_neg (by simp [isNaN64, hm]), if_pos hu]
    unfold gt64
    rw [hn, num64_finite hv]
    cases neg64 u
    · simp only [Bool.false_eq_true, if_false]
      refine ⟨by simpa using WithBot.coe_lt_coe.2 (WithTop.coe_lt_top (val64 v)), by simp⟩
    · simp

section
variable {K : Type} [Field K] [LinearOrder K] [IsStrictOrderedRing K]

/-- The assumption of the theorems about trees on the numbers holds of `float64`: for numbers below 2^1023 that are equal or
further apart than a relative 2^-50, thresholds computed in `float64` lie strictly between different numbers. -/
theorem C136_threshold (e : RuleEnv K) (hgt : e.fo.gt = gt64) (heq : e.feq = eq64) (hmid : e.mid = mid64) (D : U64 → Prop)
    (hfin : ∀ u, D u → finite64 u = true ∧ |val64 u| < 2 ^ 1023)
    (hgap : ∀ u v, D u → D v → val64 u < val64 v →
      max |val64 u| |val64 v| / 2 ^ 50 + 2 ^ (-1073 : ℤ) < val64 v - val64 u) :
    ExactOn e (fun u => ((val64 u : ℚ) : K)) D := by
  have hf : ∀ u, OrMid e.mid D u → finite64 u = true := by
    rintro u (h | ⟨a, b, ha, hb, rfl⟩)
    · exact (hfin u h).1
    · rw [hmid]
      exact (mid64_val (hfin a ha).1 (hfin b hb).1 (hfin a ha).2 (hfin b hb).2).1
  have hm : ∀ a b, D a → D b → val64 (e.mid a b) = midpoint64 (val64 a) (val64 b) := by
    intro a b ha hb
    rw [hmid]
    exact (mid64_val (hfin a ha).1 (hfin b hb).1 (hfin a ha).2 (hfin b hb).2).2
  refine ⟨?_, ?_, ?_, ?_⟩
  · intro u v hu hv
    rw [hgt, gt64_finite (hf u hu) (hf v hv), Rat.cast_lt]
  · intro u v hu hv
    rw [heq, eq64_finite (hf u hu) (hf v hv), Rat.cast_inj]
  · intro u v hu hv h
    rw [Rat.cast_inj] at h ⊢
    obtain ⟨h1, h2, _⟩ := C130_midpoint (val64 u) (val64 v) (val64_isF64 u) (val64_isF64 v) h.le
    rw [hm u v hu hv]
    rw [← h] at h2
    rw [← h] at h1 ⊢
    exact le_antisymm h2 h1
  · intro u v hu hv h
    rw [Rat.cast_lt] at h ⊢
    rw [Rat.cast_lt, hm u v hu hv]
    exact C130_separates_partial _ _ (val64_isF64 u) (val64_isF64 v) (hgap u v hu hv h)

/-- So trees grown with information gain on stored `float64` fit their training data, with thresholds and comparisons of
`float64`. Entropies are exact. -/
theorem C136_trees_fit (e : RuleEnv K) (E : e.Ok) (hgt : e.fo.gt = gt64) (heq : e.feq = eq64) (hmid : e.mid = mid64)
    (srt : List Spec → List Spec) (hs : ∀ l, (srt l).Perm l) (order : List String → Grid → List Nat)
    (ho : ∀ p (g : Grid), g.RowOrder (order p g)) (classes : List String → List String → List String)
    (hc : ∀ p l, (classes p l).Perm l) (g : Grid) (n : Nat) (lab : Nat → String) (cls : Attr)
    (T : TreeData e.fo g n lab cls) (S : U64 → Prop) (hS : g.FloatsIn n S)
    (hfin : ∀ u, S u → finite64 u = true ∧ |val64 u| < 2 ^ 1023)
    (hgap : ∀ u v, S u → S v → val64 u < val64 v →
      max |val64 u| |val64 v| / 2 ^ 50 + 2 ^ (-1073 : ℤ) < val64 v - val64 u) :
    ∃ t, inferID3 ⟨e.fo, srt, order, classes, fun _ => infoGain e⟩ g = Res.ok t ∧
      t.Fits (g.branch e.fo) lab (List.range n) ∧ t.AllRules fun r => r.attr ∈ g.allAttributes ∧ r.attr ≠ cls :=
  C50_trees_fit e E _ S (C136_threshold e hgt heq hmid S hfin hgap) srt hs order ho classes hc g n lab cls T hS

end

/-- Turning numbers into truth values: positive numbers are true, and NaN, zero and negative numbers are false; every number
but zero counts as not zero, and one and zero are stored for true and false. -/
theorem C136_truth (u : U64) : f64Pos u = gt64 u 0#64 ∧ f64NonZero u = !eq64 u 0#64 ∧ val64 f64One = 1 ∧ val64 0#64 = 0 := by
  have hu := u.isLt
  have f0 : finite64 0#64 = true := by decide +kernel
  have v0 : val64 0#64 = 0 := by
    rw [val64_nonneg (by decide +kernel)]
    exact magVal_zero
  have hz : ∀ w : U64, val64 w = 0 ↔ w.toNat % 2 ^ 63 = 0 := by
    intro w
    rw [← abs_eq_zero, abs_val64, ← magVal_zero]
    exact magVal_mono.injective.eq_iff
  refine ⟨?_, ?_, ?_, v0⟩
  · rw [Bool.eq_iff_iff]
    unfold f64Pos
    rw [Bool.and_eq_true, decide_eq_true_eq, decide_eq_true_eq]
    rcases Nat.lt_trichotomy (mag64 u) infMag with h | h | h
    · have hf : finite64 u = true := by simpa [finite64] using h
      rw [gt64_finite hf f0, v0]
      cases hn : neg64 u with
      | true =>
        rw [val64_neg hn]
        have h1 := magVal_nonneg (u.toNat - 2 ^ 63)
        have h2 : 2 ^ 63 ≤ u.toNat := by simpa [neg64] using hn
        constructor
        · rintro ⟨_, h3⟩; omega
        · intro h3; linarith
      | false =>
        have h2 : u.toNat < 2 ^ 63 := by simpa [neg64] using hn
        rw [val64_nonneg hn, ← magVal_zero, magVal_mono.lt_iff_lt]
        unfold mag64 infMag at h
        rw [Nat.mod_eq_of_lt h2] at h
        omega
    · rw [(C136_comparisons.2.2 u 0#64 (by simp [isInf64, h]) f0).1]
      unfold mag64 infMag at h
      unfold neg64
      rw [Bool.not_eq_true', decide_eq_false_iff_not]
      omega
    · rw [(C136_comparisons.2.1 u 0#64 (by simp [isNaN64, h])).1]
      unfold mag64 infMag at h
      simp only [Bool.false_eq_true, iff_false]
      omega
  · have hl : f64NonZero u = true ↔ u.toNat % 2 ^ 63 ≠ 0 := by
      unfold f64NonZero
      rw [Bool.and_eq_true, bne_iff_ne, bne_iff_ne, ← BitVec.toNat_ne_iff_ne, ← BitVec.toNat_ne_iff_ne]
      simp only [BitVec.toNat_ofNat]
      omega
    rw [Bool.eq_iff_iff, hl, Bool.not_eq_true']
    rcases Nat.lt_or_ge (mag64 u) infMag with h | h
    · have hf : finite64 u = true := by simpa [finite64] using h
      rw [← Bool.not_eq_true, eq64_finite hf f0, v0, hz]
    · have h1 : u.toNat % 2 ^ 63 ≠ 0 := by unfold mag64 infMag at h; omega
      refine iff_of_true h1 ?_
      rcases Nat.lt_or_eq_of_le h with h | h
      · exact (C136_comparisons.2.1 u 0#64 (by simp [isNaN64, h])).2.2.1
      · have hn : num64 u = some (if neg64 u then ⊥ else ((⊤ : WithTop ℚ) : WithBot (WithTop ℚ))) := by
          unfold num64
          rw [if_neg (by simp [isNaN64, ← h]), if_pos (by simp [isInf64, h])]
        unfold eq64
        rw [hn, num64_finite f0]
        cases neg64 u <;> simp
  · rw [val64_nonneg (by decide +kernel)]
    have : f64One.toNat = 2 ^ 52 * (1022 + 1) + 0 := by decide +kernel
    rw [this, magVal_norm (by decide)]
    norm_num

/-! ## Sorting -/

/-- The number in the column of `a`, row `r`. -/
theorem number_pack {g : Grid} {a : Attr} {r : Nat} {u : U64} (h : g.cell a r = packU64 u) : g.number val64 a r = val64 u := by
  unfold Grid.number
  rw [h]
  have : unpackFloatBits (packU64 u) = Res.ok u := C01_unpack_pack u
  rw [this]

/-- Full claim: sorting on a column of numbers puts them in order. -/
def C136_sort_full : Prop :=
  ∀ (pg : Nat) (ops : List Op) (st : St), (∀ op ∈ ops, basicOp op = true) → run pg ops = Res.ok st →
    (addedAttrs ops).Pairwise (fun a b => a.equals b = false) →
    ∀ (a : Attr) (s : Spec), a ∈ st.d.allAttributes → st.d.getAttribute a = Res.ok s → a.isFloat = true →
      (∀ r, r < totalRows ops → ∃ u, (Grid.dense st.d).cell a r = packU64 u ∧ finite64 u = true) →
      ∃ d', sortDense id st.d false [s] = Res.ok d' ∧ ∀ r q, r < q → q < totalRows ops →
        (Grid.dense d').number val64 a r ≤ (Grid.dense d').number val64 a q

/-- Missing: negative numbers among others, and numbers whose patterns differ in the lowest bit but seven. Columns of numbers
that are not negative come out in order, and columns of negative numbers in the opposite order, if that bit is zero. -/
theorem C136_sort_partial (pg : Nat) (ops : List Op) (st : St)
    (hb : ∀ op ∈ ops, basicOp op = true) (hrun : run pg ops = Res.ok st)
    (hd : (addedAttrs ops).Pairwise (fun a b => a.equals b = false))
    (srt : List Spec → List Spec) (hsrt : ∀ l, (srt l).Perm l)
    (a : Attr) (s : Spec) (ha : a ∈ st.d.allAttributes) (hs : st.d.getAttribute a = Res.ok s) (sign : Bool)
    (hcells : ∀ r, r < totalRows ops → ∃ u, (Grid.dense st.d).cell a r = packU64 u ∧ neg64 u = sign ∧ u.toNat % 256 < 128)
    (descending : Bool) :
    ∃ (d' : Dense) (σ : Nat → Nat), sortDense srt st.d descending [s] = Res.ok d' ∧
      ((List.range (totalRows ops)).map σ).Perm (List.range (totalRows ops)) ∧
      (∀ b ∈ st.d.allAttributes, ∀ r, r < totalRows ops → (Grid.dense d').cell b r = (Grid.dense st.d).cell b (σ r)) ∧
      ∀ r q, r < q → q < totalRows ops →
        if descending = sign then (Grid.dense d').number val64 a r ≤ (Grid.dense d').number val64 a q
        else (Grid.dense d').number val64 a q ≤ (Grid.dense d').number val64 a r := by
  have D := denseOK_run hb hrun hd
  have e := (D.presents.get_spec (s := s) ha hs).1
  obtain ⟨d', σ, h1, h2, h3, h4⟩ := C15_sort_small_codes_partial pg ops st hb hrun hd srt hsrt [s] (by
      intro t ht
      simp only [List.mem_singleton] at ht
      subst ht
      exact ⟨a, ha, hs⟩) (by
      intro t ht r hr
      simp only [List.getLast?_singleton, Option.some.injEq] at ht
      subst ht
      obtain ⟨u, hu, _, hl⟩ := hcells r hr
      rw [e, hu, C01_pack_value]
      exact hl) descending
  refine ⟨d', σ, h1, h2, h3, ?_⟩
  have hσ : ∀ i, i < totalRows ops → σ i < totalRows ops := fun i hi =>
    List.mem_range.1 (h2.subset (List.mem_map.2 ⟨i, List.mem_range.2 hi, rfl⟩))
  have key : ∀ lo hi, lo < totalRows ops → hi < totalRows ops →
      leValue ((Grid.dense d').cell a lo) ≤ leValue ((Grid.dense d').cell a hi) →
      if sign then (Grid.dense d').number val64 a hi ≤ (Grid.dense d').number val64 a lo
      else (Grid.dense d').number val64 a lo ≤ (Grid.dense d').number val64 a hi := by
    intro lo hi hlo hhi hle
    obtain ⟨u, hu, su, _⟩ := hcells (σ lo) (hσ lo hlo)
    obtain ⟨v, hv, sv, _⟩ := hcells (σ hi) (hσ hi hhi)
    rw [← h3 a ha lo hlo] at hu
    rw [← h3 a ha hi hhi] at hv
    rw [hu, hv, C01_pack_value, C01_pack_value] at hle
    rw [number_pack hu, number_pack hv]
    cases sign with
    | false =>
      rw [val64_nonneg su, val64_nonneg sv]
      simpa using magVal_mono.monotone hle
    | true =>
      rw [val64_neg su, val64_neg sv]
      have := magVal_mono.monotone (Nat.sub_le_sub_right hle (2 ^ 63))
      simpa using this
  intro r q hrq hq
  have hk := h4 r q hrq hq
  have hle : ∀ lo hi, (lexLt (rowKey (.dense d') ([s].map Spec.attr) lo) (rowKey (.dense d') ([s].map Spec.attr) hi) ∨
      (rowKey (.dense d') ([s].map Spec.attr) lo = rowKey (.dense d') ([s].map Spec.attr) hi ∧ σ lo < σ hi)) →
      leValue ((Grid.dense d').cell a lo) ≤ leValue ((Grid.dense d').cell a hi) := by
    intro lo hi h
    simp only [rowKey, List.map_cons, List.map_nil, e, lexLt, and_false, or_false, List.cons.injEq, and_true] at h
    rcases h with h | h
    · exact Nat.le_of_lt h
    · exact Nat.le_of_eq h.1
  cases descending with
  | false =>
    have := key r q (by omega) hq (hle r q (by simpa using hk))
    cases sign <;> simpa using this
  | true =>
    have := key q r hq (by omega) (hle q r (by simpa using hk))
    cases sign <;> simpa using this

/-- A column of whole numbers below 2^45 is sorted. -/
theorem C136_sort_whole (pg : Nat) (ops : List Op) (st : St)
    (hb : ∀ op ∈ ops, basicOp op = true) (hrun : run pg ops = Res.ok st)
    (hd : (addedAttrs ops).Pairwise (fun a b => a.equals b = false))
    (srt : List Spec → List Spec) (hsrt : ∀ l, (srt l).Perm l)
    (a : Attr) (s : Spec) (ha : a ∈ st.d.allAttributes) (hs : st.d.getAttribute a = Res.ok s)
    (hcells : ∀ r, r < totalRows ops → ∃ (u : U64) (n : Nat), (Grid.dense st.d).cell a r = packU64 u ∧ neg64 u = false ∧
      val64 u = n ∧ n < 2 ^ 45) (descending : Bool) :
    ∃ (d' : Dense) (σ : Nat → Nat), sortDense srt st.d descending [s] = Res.ok d' ∧
      ((List.range (totalRows ops)).map σ).Perm (List.range (totalRows ops)) ∧
      (∀ b ∈ st.d.allAttributes, ∀ r, r < totalRows ops → (Grid.dense d').cell b r = (Grid.dense st.d).cell b (σ r)) ∧
      ∀ r q, r < q → q < totalRows ops →
        if descending then (Grid.dense d').number val64 a q ≤ (Grid.dense d').number val64 a r
        else (Grid.dense d').number val64 a r ≤ (Grid.dense d').number val64 a q := by
  obtain ⟨d', σ, h1, h2, h3, h4⟩ := C136_sort_partial pg ops st hb hrun hd srt hsrt a s ha hs false (by
    intro r hr
    obtain ⟨u, n, hu, su, hv, hn⟩ := hcells r hr
    refine ⟨u, hu, su, ?_⟩
    rw [val64_nonneg su] at hv
    rw [whole_low_byte hn hv]
    decide) descending
  refine ⟨d', σ, h1, h2, h3, fun r q hrq hq => ?_⟩
  have := h4 r q hrq hq
  cases descending <;> simpa using this

/-- In any column of numbers that are not negative, a number is before a smaller one only if they differ by less than a
relative 2^-44. -/
theorem C136_sort_near_partial (pg : Nat) (ops : List Op) (st : St)
    (hb : ∀ op ∈ ops, basicOp op = true) (hrun : run pg ops = Res.ok st)
    (hd : (addedAttrs ops).Pairwise (fun a b => a.equals b = false))
    (srt : List Spec → List Spec) (hsrt : ∀ l, (srt l).Perm l)
    (a : Attr) (s : Spec) (ha : a ∈ st.d.allAttributes) (hs : st.d.getAttribute a = Res.ok s)
    (hcells : ∀ r, r < totalRows ops → ∃ u, (Grid.dense st.d).cell a r = packU64 u ∧ neg64 u = false) :
    ∃ d', sortDense srt st.d false [s] = Res.ok d' ∧ ∀ r q, r < q → q < totalRows ops →
      (Grid.dense d').number val64 a r ≤
        (Grid.dense d').number val64 a q + ((Grid.dense d').number val64 a q / 2 ^ 44 + 255 * 2 ^ (-1074 : ℤ)) := by
  have D := denseOK_run hb hrun hd
  have hs1 : ∀ t ∈ [s], ∃ b ∈ st.d.allAttributes, st.d.getAttribute b = Res.ok t := by
    intro t ht
    simp only [List.mem_singleton] at ht
    subst ht
    exact ⟨a, ha, hs⟩
  obtain ⟨d', h1, h4⟩ := C15_sort_high_bytes_partial pg ops st hb hrun hd srt hsrt a s ha hs false
  obtain ⟨d'', σ, h1', h2, h3, _⟩ := C15_sort_order_partial pg ops st hb hrun hd srt hsrt [s] hs1 false
  rw [h1, Res.ok.injEq] at h1'
  subst h1'
  refine ⟨d', h1, fun r q hrq hq => ?_⟩
  have hσ : ∀ i, i < totalRows ops → σ i < totalRows ops := fun i hi =>
    List.mem_range.1 (h2.subset (List.mem_map.2 ⟨i, List.mem_range.2 hi, rfl⟩))
  have hk := h4 r q hrq hq
  simp only [Bool.false_eq_true, if_false] at hk
  obtain ⟨u, hu, su⟩ := hcells (σ r) (hσ r (by omega))
  obtain ⟨v, hv, sv⟩ := hcells (σ q) (hσ q hq)
  rw [← h3 a ha r (by omega)] at hu
  rw [← h3 a ha q hq] at hv
  rw [hu, hv, C01_pack_value, C01_pack_value] at hk
  rw [number_pack hu, number_pack hv, val64_nonneg su, val64_nonneg sv]
  have h0 := magVal_nonneg v.toNat
  have hp : (0 : ℚ) ≤ magVal v.toNat / 2 ^ 44 + 255 * 2 ^ (-1074 : ℤ) := by
    have := two_zpow_pos (-1074)
    have : (0 : ℚ) ≤ magVal v.toNat / 2 ^ 44 := div_nonneg h0 (by positivity)
    linarith
  rcases Nat.lt_or_ge v.toNat u.toNat with h | h
  · have := magVal_low_byte (show u.toNat / 256 = v.toNat / 256 from le_antisymm hk (Nat.div_le_div_right h.le))
    linarith
  · have := magVal_mono.monotone h
    linarith

/-! ## What goes wrong, and witnesses -/

section Witness

theorem val64_of {u : U64} (s e f : Nat) (x : ℚ) (hs : s < 2) (he : e < 2047) (hf : f < 2 ^ 52)
    (hu : u.toNat = s * 2 ^ 63 + e * 2 ^ 52 + f) (hx : binary64 s e f = x) : finite64 u = true ∧ val64 u = x := by
  have h := C136_patterns s e f hs he hf
  have : BitVec.ofNat 64 (s * 2 ^ 63 + e * 2 ^ 52 + f) = u := by
    apply BitVec.eq_of_toNat_eq
    rw [BitVec.toNat_ofNat, ← hu, Nat.mod_eq_of_lt u.isLt]
  rw [this, hx] at h
  exact h

def ex1 : U64 := 0x3FF0000000000000#64
private def minusOne : U64 := 0xBFF0000000000000#64
def ex2 : U64 := 0x4000000000000000#64
def ex4 : U64 := 0x4010000000000000#64

theorem ex1_val : finite64 ex1 = true ∧ val64 ex1 = 1 :=
  val64_of 0 1023 0 1 (by decide) (by decide) (by decide) (by decide +kernel) (by norm_num [binary64])
private theorem minusOne_val : finite64 minusOne = true ∧ val64 minusOne = -1 :=
  val64_of 1 1023 0 (-1) (by decide) (by decide) (by decide) (by decide +kernel) (by norm_num [binary64])
theorem ex2_val : finite64 ex2 = true ∧ val64 ex2 = 2 :=
  val64_of 0 1024 0 2 (by decide) (by decide) (by decide) (by decide +kernel) (by norm_num [binary64])
theorem ex4_val : finite64 ex4 = true ∧ val64 ex4 = 4 :=
  val64_of 0 1025 0 4 (by decide) (by decide) (by decide) (by decide +kernel) (by norm_num [binary64])

private def aX : Attr := ⟨0, .float "x" 2⟩
private def aC : Attr := ⟨1, .cat "c" ["a", "b"]⟩
private def opsS (x y : U64) : List Op := [.add aX, .extend 2, .set 0 0 (packU64 x), .set 0 1 (packU64 y)]

/-- The full claim about sorting is false: -1 and 1 are exchanged. -/
theorem C136_sort_full_fails : ¬ C136_sort_full := by
  intro h
  have e : ((run 4096 (opsS minusOne ex1)).bind fun st => (st.d.getAttribute aX).bind fun s =>
      (sortDense id st.d false [s]).map fun d' =>
        (decide (aX ∈ st.d.allAttributes), (Grid.dense st.d).cell aX 0, (Grid.dense st.d).cell aX 1,
          (Grid.dense d').cell aX 0, (Grid.dense d').cell aX 1)) =
      Res.ok (true, packU64 minusOne, packU64 ex1, packU64 ex1, packU64 minusOne) := by decide +kernel
  simp only [Res.bind_eq_ok, Res.map_eq_ok, Prod.mk.injEq, decide_eq_true_eq] at e
  obtain ⟨st, e1, s, e2, d', e3, e4, e5, e6, e7, e8⟩ := e
  obtain ⟨d'', h1, h2⟩ := h 4096 _ st (by decide) e1 (by decide +kernel) aX s e4 e2 rfl (by
    intro r hr
    have hr : r < 2 := hr
    rcases (by omega : r = 0 ∨ r = 1) with rfl | rfl
    · exact ⟨minusOne, e5, minusOne_val.1⟩
    · exact ⟨ex1, e6, ex1_val.1⟩)
  rw [e3, Res.ok.injEq] at h1
  subst h1
  have h2 := h2 0 1 (by decide) (by decide)
  rw [number_pack e7, number_pack e8, ex1_val.2, minusOne_val.2] at h2
  norm_num at h2

/-- Two columns of whole numbers, not in order, meet the hypotheses of `C136_sort_whole`. -/
example : ∃ st s, run 4096 (opsS ex4 ex2) = Res.ok st ∧ aX ∈ st.d.allAttributes ∧ st.d.getAttribute aX = Res.ok s ∧
    ∀ r, r < totalRows (opsS ex4 ex2) → ∃ (u : U64) (n : Nat), (Grid.dense st.d).cell aX r = packU64 u ∧ neg64 u = false ∧
      val64 u = n ∧ n < 2 ^ 45 := by
  have e : ((run 4096 (opsS ex4 ex2)).bind fun st => (st.d.getAttribute aX).map fun s =>
        (decide (aX ∈ st.d.allAttributes), (Grid.dense st.d).cell aX 0, (Grid.dense st.d).cell aX 1)) =
      Res.ok (true, packU64 ex4, packU64 ex2) := by decide +kernel
  simp only [Res.bind_eq_ok, Res.map_eq_ok, Prod.mk.injEq, decide_eq_true_eq] at e
  obtain ⟨st, e1, s, e2, e4, e5, e6⟩ := e
  refine ⟨st, s, e1, e4, e2, ?_⟩
  intro r hr
  have hr : r < 2 := hr
  rcases (by omega : r = 0 ∨ r = 1) with rfl | rfl
  · exact ⟨ex4, 4, e5, by decide +kernel, by rw [ex4_val.2]; norm_num, by norm_num⟩
  · exact ⟨ex2, 2, e6, by decide +kernel, by rw [ex2_val.2]; norm_num, by norm_num⟩

/-- The order of the numbers, NaN last. -/
def exLe64 (p q : U64 × String) : Prop :=
  match num64 p.1, num64 q.1 with
  | some x, some y => x ≤ y
  | none, some _ => False
  | _, none => True

instance (p q : U64 × String) : Decidable (exLe64 p q) := by
  unfold exLe64
  cases num64 p.1 <;> cases num64 q.1 <;> infer_instance

instance : Std.Total exLe64 := ⟨fun p q => by
  unfold exLe64
  cases num64 p.1 <;> cases num64 q.1 <;> simp [le_total]⟩

instance : IsTrans (U64 × String) exLe64 := ⟨fun p q r => by
  unfold exLe64
  cases num64 p.1 <;> cases num64 q.1 <;> cases num64 r.1 <;> simp
  exact le_trans⟩

/-- A rule generator with the operations of `float64`. -/
noncomputable def exEnv64 : RuleEnv ℝ where
  fo := ⟨fun _ _ => "", gt64⟩
  feq := eq64
  mid := mid64
  lg := Real.logb 2
  sortRefs l := l.insertionSort exLe64
  order := someOrder
  cands l := l

theorem exEnv64_ok : exEnv64.Ok where
  log := logb_logarithm
  sort l := by
    refine ⟨List.perm_insertionSort _ l, fun _ => ?_⟩
    refine (List.pairwise_insertionSort exLe64 l).imp ?_
    intro p q hpq
    show gt64 p.1 q.1 = false
    unfold exLe64 at hpq
    unfold gt64
    cases hp : num64 p.1 <;> cases hq : num64 q.1 <;> rw [hp, hq] at hpq <;> simp_all
  rowOrder := someOrder_rowOrder
  cands _ := List.Perm.refl _

private def opsT : List Op :=
  [.add aX, .add aC, .addClass aC, .extend 4, .set 0 0 (packU64 ex1), .set 0 1 (packU64 ex2),
   .set 0 2 (packU64 ex4), .set 0 3 (packU64 ex1), .set 1 2 (packU64 1)]

def exNumbers (u : U64) : Prop := u = ex1 ∨ u = ex2 ∨ u = ex4

theorem exNumbers_finite : ∀ u, exNumbers u → finite64 u = true ∧ |val64 u| < 2 ^ 1023 := by
  have hb : (2 : ℚ) ^ 3 ≤ 2 ^ 1023 := pow_le_pow_right₀ (by norm_num) (by norm_num)
  rintro u (rfl | rfl | rfl)
  · refine ⟨ex1_val.1, lt_of_lt_of_le ?_ hb⟩; rw [ex1_val.2]; norm_num
  · refine ⟨ex2_val.1, lt_of_lt_of_le ?_ hb⟩; rw [ex2_val.2]; norm_num
  · refine ⟨ex4_val.1, lt_of_lt_of_le ?_ hb⟩; rw [ex4_val.2]; norm_num

theorem exNumbers_apart : ∀ u v, exNumbers u → exNumbers v → val64 u < val64 v →
    max |val64 u| |val64 v| / 2 ^ 50 + 2 ^ (-1073 : ℤ) < val64 v - val64 u := by
  have hp : (2 : ℚ) ^ (-1073 : ℤ) ≤ 2 ^ (-2 : ℤ) := zpow_le_zpow_right₀ (by norm_num) (by norm_num)
  have hp : (2 : ℚ) ^ (-1073 : ℤ) ≤ 1 / 4 := hp.trans (by norm_num)
  have key : ∀ x y : ℚ, 0 ≤ x → x + 1 ≤ y → y ≤ 4 → max |x| |y| / 2 ^ 50 + 2 ^ (-1073 : ℤ) < y - x := by
    intro x y h0 h1 h2
    rw [abs_of_nonneg h0, abs_of_nonneg (by linarith), max_eq_right (by linarith)]
    have : y / 2 ^ 50 ≤ 1 / 4 := by rw [div_le_iff₀ (by norm_num)]; norm_num; linarith
    linarith
  rintro u v (rfl | rfl | rfl) (rfl | rfl | rfl) h
  all_goals simp only [ex1_val.2, ex2_val.2, ex4_val.2] at h ⊢
  all_goals first
    | (exfalso; norm_num at h; done)
    | (exact key _ _ (by norm_num) (by norm_num) (by norm_num))

/-- The hypotheses of `C136_trees_fit` hold for four rows with the numbers 1, 2, 4 and 1. -/
example : ∃ tr, run 4096 opsT = Res.ok tr ∧ exEnv64.Ok ∧
    TreeData exEnv64.fo (.dense tr.d) 4 (fun r => ["a", "a", "b", "a"].getD r "") aC ∧
    (Grid.dense tr.d).FloatsIn 4 exNumbers ∧ (∀ u, exNumbers u → finite64 u = true ∧ |val64 u| < 2 ^ 1023) ∧
    ∀ u v, exNumbers u → exNumbers v → val64 u < val64 v →
      max |val64 u| |val64 v| / 2 ^ 50 + 2 ^ (-1073 : ℤ) < val64 v - val64 u := by
  have e : ((run 4096 opsT).map fun tr =>
      (treeCheck ⟨fun _ _ => "", gt64⟩ tr.d 4 ["a", "a", "b", "a"] aC,
        tr.d.allAttributes.all fun a => !a.isFloat || (List.range 4).all fun r =>
          match unpackFloatBits ((Grid.dense tr.d).cell a r) with
          | .ok u => u == ex1 || u == ex2 || u == ex4
          | _ => false)) =
      Res.ok (true, true) := by decide +kernel
  rw [Res.map_eq_ok] at e
  obtain ⟨tr, e1, e2⟩ := e
  simp only [Prod.mk.injEq] at e2
  obtain ⟨e2, e3⟩ := e2
  refine ⟨tr, e1, exEnv64_ok, ?_, ?_, exNumbers_finite, exNumbers_apart⟩
  · exact treeData_dense (denseOK_run (ops := opsT) (by decide) e1 (by decide +kernel)) e2
  · intro a ha hf r hr
    have h := List.all_eq_true.1 e3 a ha
    rw [hf, Bool.not_true, Bool.false_or, List.all_eq_true] at h
    have h := h r (List.mem_range.2 hr)
    cases hu : unpackFloatBits ((Grid.dense tr.d).cell a r) with
    | ok u => rw [hu] at h; exact ⟨u, rfl, by simpa [exNumbers, or_assoc] using h⟩
    | err => rw [hu] at h; cases h
    | panic => rw [hu] at h; cases h

end Witness

end Golearn
