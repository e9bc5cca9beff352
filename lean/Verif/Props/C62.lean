import Verif.Proofs.Discretise
import Verif.Props.C33
import Verif.Spec.Knn
import Mathlib.Data.Rat.Floor

/-! # C62: equal-width binning -/

namespace Golearn

variable {K : Type} [Field K] [LinearOrder K]

/-- Training finds the smallest and the largest value of every chosen column, over all rows, in any order of rows and columns. -/
theorem C62_train (val : U64 → K) (g : Grid) (n : Nat) (hn : 0 < n) (P : g.Presents n) (T : g.typed n) (chosen : List Attr)
    (hsub : ∀ a ∈ chosen, a ∈ g.allAttributes) (hf : ∀ a ∈ chosen, a.isFloat = true) (hnd : chosen.Nodup)
    (order : List Nat) (ho : g.RowOrder order) :
    ∃ m, binTrain val g chosen order = Res.ok m ∧ ∀ a ∈ chosen, ∃ mn mx, m.get? a = some ⟨some mn, some mx⟩ ∧
      (∃ r, r < n ∧ g.number val a r = mn) ∧ (∃ r, r < n ∧ g.number val a r = mx) ∧
      ∀ r, r < n → mn ≤ g.number val a r ∧ g.number val a r ≤ mx := by
  obtain ⟨m, h1, h2⟩ := binTrain_spec val P T chosen hsub hf hnd order ho
  refine ⟨m, h1, ?_⟩
  intro a ha
  have hp := P.order order ho
  have hne : (order.map fun r => g.number val a r) ≠ [] := by
    intro e
    have := hp.length_eq
    rw [List.map_eq_nil_iff] at e
    rw [e] at this
    simp at this
    omega
  obtain ⟨mn, mx, e1, e2, e3, e4⟩ := range_of _ hne
  refine ⟨mn, mx, by rw [h2 a, if_pos ha, e1], ?_, ?_, ?_⟩
  · obtain ⟨r, hr, e⟩ := List.mem_map.1 e2
    exact ⟨r, List.mem_range.1 (hp.subset hr), e⟩
  · obtain ⟨r, hr, e⟩ := List.mem_map.1 e3
    exact ⟨r, List.mem_range.1 (hp.subset hr), e⟩
  · intro r hr
    exact e4 _ (List.mem_map.2 ⟨r, hp.symm.subset (List.mem_range.2 hr), rfl⟩)

/-- Only columns of numbers can be added. -/
theorem C62_add (g : Grid) (n : Nat) (P : g.Presents n) (a : Attr) (ha : a ∈ g.allAttributes) :
    discAdd g a = if a.isFloat then Res.ok () else Res.err := by
  obtain ⟨s, h, _⟩ := P.read a ha
  unfold discAdd
  rw [h]

/-- The chosen columns and the range found for each. -/
def BinningTrained (g : Grid) (n : Nat) (val : U64 → K) (chosen : List Attr) (m : GoMap Attr (Range K)) : Prop :=
  ∀ a ∈ chosen, a ∈ g.allAttributes ∧ a.isFloat = true ∧ ∃ mn mx, m.get? a = some ⟨some mn, some mx⟩ ∧ mn < mx ∧
    ∀ r, r < n → mn ≤ g.number val a r ∧ g.number val a r ≤ mx

variable [IsStrictOrderedRing K] [FloorRing K]

/-- Values of the range are put into bins 0 to `bins`, in the order of the values. -/
theorem C62_bins (bins : Nat) (hb : 0 < bins) (mn mx : K) (h : mn < mx) :
    (∀ v, v ≤ mx → 0 ≤ binOf bins ⟨some mn, some mx⟩ v ∧ binOf bins ⟨some mn, some mx⟩ v ≤ bins) ∧
    ∀ v w, v ≤ w → binOf bins ⟨some mn, some mx⟩ v ≤ binOf bins ⟨some mn, some mx⟩ w :=
  ⟨fun v hv => ⟨binOf_nonneg bins hb mn mx v h, binOf_le bins hb mn mx v h hv⟩, fun v w => binOf_mono bins hb mn mx v w h⟩

/-- Values at or below the smallest, and so all values of a constant column, are put into bin 0. -/
theorem C62_lowest (bins : Nat) (mn mx v : K) (hv : v ≤ mn) : binOf bins ⟨some mn, some mx⟩ v = 0 := binOf_low bins mn mx v hv

/-- Bins have equal width: with the width `d`, a value above the smallest is put into bin `k` exactly if it lies between `mn + k * d`
and `mn + (k + 1) * d`, both ends moved down by a ten-thousandth of `d`. -/
theorem C62_width (bins : Nat) (hb : 0 < bins) (mn mx v : K) (h : mn < mx) (hv : mn < v) (k : Int) :
    let d := (mx - mn) / bins
    binOf bins ⟨some mn, some mx⟩ v = k ↔ mn + k * d - d / 10000 ≤ v ∧ v < mn + (k + 1) * d - d / 10000 := by
  simp only
  rw [binOf_iff bins hb mn mx v h hv]
  constructor <;> rintro ⟨h1, h2⟩ <;> constructor <;> linarith

/-- The claim that there are `bins` bins: it fails for every range, because the largest value has the number `bins`. That bin holds no
value of the range other than those within a ten-thousandth of the width from the largest. -/
theorem C62_extra_bin (bins : Nat) (hb : 0 < bins) (mn mx : K) (h : mn < mx) :
    ¬ (∀ v, mn ≤ v → v ≤ mx → binOf bins ⟨some mn, some mx⟩ v < bins) ∧
    ∀ v, mn ≤ v → v ≤ mx → (binOf bins ⟨some mn, some mx⟩ v = bins ↔ mx - (mx - mn) / bins / 10000 ≤ v) := by
  have hbK : (0 : K) < bins := by exact_mod_cast hb
  have hd : 0 < (mx - mn) / bins := div_pos (by linarith) hbK
  refine ⟨?_, ?_⟩
  · intro hall
    have := hall mx h.le le_rfl
    rw [binOf_max bins hb mn mx h] at this
    exact lt_irrefl _ this
  · intro v h1 h2
    have e : (bins : K) * ((mx - mn) / bins) = mx - mn := by field_simp
    rcases eq_or_lt_of_le h1 with rfl | h1
    · rw [binOf_low bins _ mx _ le_rfl]
      constructor
      · intro h0
        have : (bins : Int) ≠ 0 := by exact_mod_cast hb.ne'
        exact absurd h0.symm this
      · intro h0
        exfalso
        have : (mx - mn) / bins / 10000 < mx - mn := by
          rw [div_lt_iff₀ (by norm_num)]
          have : (mx - mn) / bins ≤ mx - mn := div_le_self (by linarith) (by exact_mod_cast hb)
          linarith
        linarith
    · have hw := C62_width bins hb mn mx v h h1 bins
      simp only at hw
      rw [hw]
      have e2 : (((bins : Int) : K)) = (bins : K) := by push_cast; rfl
      rw [e2, e, add_mul, e, one_mul]
      have : (mx - mn) / bins / 10000 < (mx - mn) / bins := by
        rw [div_lt_iff₀ (by norm_num)]
        linarith
      constructor
      · rintro ⟨h3, _⟩; linarith
      · intro h3; constructor <;> linarith

/-- A value beyond the range by a width or more gets a number for which there is no label; the new attribute cannot print it. -/
theorem C62_outside (fmt : K → String) (bins : Nat) (hb : 0 < bins) (hb2 : bins < 2 ^ 62) (mn mx v : K) (h : mn < mx)
    (hv : mx + (mx - mn) / bins ≤ v) (hv2 : binOf bins ⟨some mn, some mx⟩ v < 2 ^ 64) :
    catGetString (binLabels fmt bins mn mx) (packU64 (BitVec.ofInt 64 (binOf bins ⟨some mn, some mx⟩ v))) = Res.panic := by
  have hbK : (0 : K) < bins := by exact_mod_cast hb
  have hd : 0 < (mx - mn) / bins := div_pos (by linarith) hbK
  have hk : (bins : Int) + 1 ≤ binOf bins ⟨some mn, some mx⟩ v := by
    have h1 := binOf_mono bins hb mn mx _ _ h hv
    have h2 : binOf bins ⟨some mn, some mx⟩ (mx + (mx - mn) / bins) = (bins : Int) + 1 := by
      have hw := C62_width bins hb mn mx (mx + (mx - mn) / bins) h (by linarith) ((bins : Int) + 1)
      simp only at hw
      rw [hw]
      have e : (bins : K) * ((mx - mn) / bins) = mx - mn := by field_simp
      have : (mx - mn) / bins / 10000 < (mx - mn) / bins := by
        rw [div_lt_iff₀ (by norm_num)]
        linarith
      have := div_pos hd (by norm_num : (0 : K) < 10000)
      push_cast
      rw [add_mul, add_mul, e, one_mul, add_mul, e, one_mul]
      constructor <;> linarith
    rwa [h2] at h1
  unfold catGetString
  rw [C01_unpack_pack, Res.bind_ok]
  have hlen : (binLabels fmt bins mn mx).length ≤ bins + 1 := by
    unfold binLabels
    by_cases hn : ((List.range (bins + 1)).map fun i => fmt (binEdge bins mn mx i)).Nodup
    · rw [addLabels_nodup [] _ (by simpa using hn)]; simp
    · have := addLabels_short _ hn
      simp at this
      omega
  have ht : (BitVec.ofInt 64 (binOf bins ⟨some mn, some mx⟩ v)).toNat = (binOf bins ⟨some mn, some mx⟩ v).toNat := by
    rw [BitVec.toNat_ofInt]
    congr 1
    exact Int.emod_eq_of_lt (by omega) (by exact_mod_cast hv2)
  rw [ht, List.getElem?_eq_none (by omega)]

/-- If the lower ends of the bins are printed differently, every value of the range is shown as the lower end of its bin. -/
theorem C62_labels (fmt : K → String) (bins : Nat) (hb : 0 < bins) (hb2 : bins < 2 ^ 62) (mn mx : K) (h : mn < mx)
    (hfmt : ∀ i j, i ≤ bins → j ≤ bins → fmt (binEdge bins mn mx i) = fmt (binEdge bins mn mx j) → i = j) (v : K) (hv : v ≤ mx) :
    ∃ k : Nat, k ≤ bins ∧ binOf bins ⟨some mn, some mx⟩ v = k ∧
      catGetString (binLabels fmt bins mn mx) (packU64 (BitVec.ofInt 64 (binOf bins ⟨some mn, some mx⟩ v))) =
        Res.ok (fmt (mn + k * ((mx - mn) / bins))) := by
  have h0 := binOf_nonneg bins hb mn mx v h
  have h1 := binOf_le bins hb mn mx v h hv
  obtain ⟨k, hk⟩ := Int.eq_ofNat_of_zero_le h0
  rw [hk] at h1 ⊢
  have hkb : k ≤ bins := by exact_mod_cast h1
  refine ⟨k, hkb, rfl, ?_⟩
  unfold catGetString
  rw [C01_unpack_pack, Res.bind_ok]
  have ht : (BitVec.ofInt 64 (k : Int)).toNat = k := by
    rw [BitVec.toNat_ofInt]
    have : ((k : Int) % ((2 : Nat) ^ 64 : Nat)) = k := Int.emod_eq_of_lt (by omega) (by push_cast; omega)
    rw [this]
    rfl
  have hn : ((List.range (bins + 1)).map fun i => fmt (binEdge bins mn mx i)).Nodup := by
    rw [List.nodup_map_iff_inj_on List.nodup_range]
    intro i hi j hj e
    rw [List.mem_range] at hi hj
    exact hfmt i j (by omega) (by omega) e
  have hl : (binLabels fmt bins mn mx)[k]? = some (fmt (mn + k * ((mx - mn) / bins))) := by
    unfold binLabels
    rw [addLabels_nodup [] _ (by simpa using hn), List.nil_append, List.getElem?_map,
      List.getElem?_range (by omega)]
    simp only [Option.map_some, binEdge]
    rw [add_comm]
  rw [ht, hl]

/-- If two are printed alike, the largest value of the training data cannot be printed. -/
theorem C62_labels_collide (fmt : K → String) (bins : Nat) (hb : 0 < bins) (hb2 : bins < 2 ^ 62) (mn mx : K) (h : mn < mx)
    (i j : Nat) (hij : i ≠ j) (hi : i ≤ bins) (hj : j ≤ bins) (hfmt : fmt (binEdge bins mn mx i) = fmt (binEdge bins mn mx j)) :
    catGetString (binLabels fmt bins mn mx) (packU64 (BitVec.ofInt 64 (binOf bins ⟨some mn, some mx⟩ mx))) = Res.panic := by
  rw [binOf_max bins hb mn mx h]
  unfold catGetString
  rw [C01_unpack_pack, Res.bind_ok]
  have ht : (BitVec.ofInt 64 (bins : Int)).toNat = bins := by
    rw [BitVec.toNat_ofInt]
    have : ((bins : Int) % ((2 : Nat) ^ 64 : Nat)) = bins := Int.emod_eq_of_lt (by omega) (by push_cast; omega)
    rw [this]
    rfl
  have hn : ¬ ((List.range (bins + 1)).map fun i => fmt (binEdge bins mn mx i)).Nodup := by
    intro hn
    rw [List.nodup_map_iff_inj_on List.nodup_range] at hn
    exact hij (hn i (List.mem_range.2 (by omega)) j (List.mem_range.2 (by omega)) hfmt)
  have hlen : (binLabels fmt bins mn mx).length ≤ bins := by
    have := addLabels_short _ hn
    unfold binLabels
    simp at this
    omega
  rw [ht, List.getElem?_eq_none hlen]

/-- Three bins from 0 to 3, printed without decimals; the number 2.5 is shown as 2, and 3 as 3. With the range from 0 to 0.3 all ends are
printed as 0. -/
example : (∀ i j, i ≤ 3 → j ≤ 3 → (fun x : ℚ => toString ⌊x⌋) (binEdge 3 0 3 i) = (fun x : ℚ => toString ⌊x⌋) (binEdge 3 0 3 j) → i = j) ∧
    binOf 3 ⟨some 0, some 3⟩ (5 / 2 : ℚ) = 2 ∧ binOf 3 ⟨some 0, some 3⟩ (3 : ℚ) = 3 ∧
    binLabels (fun x : ℚ => toString ⌊x⌋) 3 0 (3 / 10) = ["0"] := by
  refine ⟨?_, by decide +kernel, by decide +kernel, by decide +kernel⟩
  intro i j hi hj
  have : ∀ i ∈ List.range 4, ∀ j ∈ List.range 4,
      (fun x : ℚ => toString ⌊x⌋) (binEdge 3 0 3 i) = (fun x : ℚ => toString ⌊x⌋) (binEdge 3 0 3 j) → i = j := by decide +kernel
  exact this i (List.mem_range.2 (by omega)) j (List.mem_range.2 (by omega))

/-- The filtered data set: it has the same rows; columns that were not chosen are shown as they are; a chosen column is a category of the
same name, and shows in every row the bin of the number in the source. Missing from the English claim: the extra bin
(`C62_extra_bin`). -/
theorem C62_grid_partial (val : U64 → K) (fmt : Attr → K → String) (g : Grid) (n : Nat) (P : g.Presents n) (T : g.typed n)
    (hd : g.distinct) (hnames : (g.allAttributes.map Attr.name).Nodup) (bins : Nat) (hb : 0 < bins) (hb2 : bins < 2 ^ 62)
    (chosen : List Attr) (m : GoMap Attr (Range K)) (htr : BinningTrained g n val chosen m) (fresh : Nat → Nat) :
    let f := binFilter val fmt bins g.allAttributes chosen fresh m
    (Grid.newFiltered g f).Presents n ∧
    (∀ a ∈ g.allAttributes, a ∉ chosen → a ∈ (Grid.newFiltered g f).allAttributes ∧
      ∀ r, r < n → (Grid.newFiltered g f).cell a r = g.cell a r) ∧
    ∀ a ∈ chosen, ∃ b ∈ (Grid.newFiltered g f).allAttributes, b.name = a.name ∧ b.isCat = true ∧
      ∃ mn mx, m.get? a = some ⟨some mn, some mx⟩ ∧ b.body = .cat a.name (binLabels (fmt a) bins mn mx) ∧
        ∀ r, r < n → ∃ k : Nat, k ≤ bins ∧ binOf bins ⟨some mn, some mx⟩ (g.number val a r) = k ∧
          (Grid.newFiltered g f).cell b r = stored k := by
  intro f
  have hcell : ∀ a ∈ chosen, ∀ r, r < n → ∃ u, unpackFloatBits (g.cell a r) = Res.ok u ∧ g.number val a r = val u := by
    intro a ha r hr
    obtain ⟨h1, h2, _⟩ := htr a ha
    obtain ⟨w, hw⟩ := unpack_typed T h1 h2 hr
    exact ⟨w, hw, by unfold Grid.number; rw [hw]⟩
  have htot : ∀ a ∈ g.allAttributes, ∀ b, ∀ r, r < n → ∃ v, binTransform val bins chosen m a b (g.cell a r) = Res.ok v := by
    intro a ha b r hr
    unfold binTransform
    by_cases hc : a ∈ chosen
    · rw [if_pos hc, if_pos (htr a hc).2.1]
      obtain ⟨u, hu, _⟩ := hcell a hc r hr
      rw [hu]
      exact ⟨_, rfl⟩
    · rw [if_neg hc]
      exact ⟨_, rfl⟩
  obtain ⟨F, hpass⟩ := disc_fits (src := g) (n := n) chosen (binNewLabels fmt bins m) fresh (binTransform val bins chosen m) hnames htot
  have F' : FilterFits g f n := F
  have hattrs : f.attrs = discAttrs g.allAttributes chosen (binNewLabels fmt bins m) fresh := rfl
  have P' := (C33_iteration_partial g n P hd f F' fun a ha => absurd ha (hpass a)).1
  obtain ⟨h1, _, _, _, h5⟩ := C33_get g n P hd f F'
  have hread : ∀ p ∈ f.attrs, p.new ∈ (Grid.newFiltered g f).allAttributes ∧ ∀ r, r < n →
      binTransform val bins chosen m p.old p.new (g.cell p.old r) = Res.ok ((Grid.newFiltered g f).cell p.new r) := by
    intro p hp
    have hm := (h1 p.new).2 (Or.inr ⟨p, hp, rfl⟩)
    refine ⟨hm, ?_⟩
    intro r hr
    obtain ⟨s, hs, hg⟩ := h5 p hp
    obtain ⟨v, hv, ht⟩ := hg r hr
    have := (P'.get_spec hm hs).2 r hr
    rw [hv, Res.ok.injEq] at this
    rw [← this]
    exact ht
  have hfind : ∀ a ∈ g.allAttributes, ∃ p ∈ f.attrs, p.old = a := by
    intro a ha
    have hold : f.attrs.map FAttr.old = g.allAttributes := by rw [hattrs]; exact discAttrs_old _ _ _ _
    rw [← hold] at ha
    obtain ⟨p, hp, e⟩ := List.mem_map.1 ha
    exact ⟨p, hp, e⟩
  refine ⟨P', ?_, ?_⟩
  · intro a ha hc
    obtain ⟨p, hp, rfl⟩ := hfind a ha
    have hnew : p.new = p.old := (discAttrs_mem (hattrs ▸ hp)).2.2.2 hc
    obtain ⟨k1, k2⟩ := hread p hp
    rw [hnew] at k1 k2
    refine ⟨k1, ?_⟩
    intro r hr
    have := k2 r hr
    unfold binTransform at this
    rw [if_neg hc, Res.ok.injEq] at this
    exact this.symm
  · intro a hc
    obtain ⟨ha, hfl, mn, mx, hm, hlt, hrange⟩ := htr a hc
    obtain ⟨p, hp, rfl⟩ := hfind a ha
    have hbody := (discAttrs_mem (hattrs ▸ hp)).2.2.1 hc
    simp only [binNewLabels, hm, Option.getD_some] at hbody
    obtain ⟨k1, k2⟩ := hread p hp
    refine ⟨p.new, k1, (discAttrs_mem (hattrs ▸ hp)).2.1, by simp [Attr.isCat, hbody], mn, mx, hm, hbody, ?_⟩
    intro r hr
    obtain ⟨u, hu, e⟩ := hcell p.old hc r hr
    have h0 := binOf_nonneg bins hb mn mx (g.number val p.old r) hlt
    have h1 := binOf_le bins hb mn mx (g.number val p.old r) hlt (hrange r hr).2
    obtain ⟨k, hk⟩ := Int.eq_ofNat_of_zero_le h0
    rw [hk] at h1
    refine ⟨k, by exact_mod_cast h1, hk, ?_⟩
    have := k2 r hr
    unfold binTransform at this
    rw [if_pos hc, if_pos hfl, hu, Res.map_ok, hm, Option.getD_some, ← e, hk, Res.ok.injEq] at this
    rw [← this]
    unfold stored
    congr 1

section Witness
private def bX : Attr := ⟨0, .float "x" 2⟩
private def bOps : List Op := [.add bX, .extend 2, .set 0 0 (stored 5), .set 0 1 (stored 9)]

/-- Training on two rows, and the result meets the conditions of `C62_grid_partial` (bit patterns read as natural numbers). -/
example : ∃ st m, run 4096 bOps = Res.ok st ∧ binTrain (fun u => (u.toNat : ℚ)) (.dense st.d) [bX] [0, 1] = Res.ok m ∧
    m = [(bX, ⟨some 5, some 9⟩)] ∧ BinningTrained (.dense st.d) 2 (fun u => (u.toNat : ℚ)) [bX] m := by
  obtain ⟨st, h1, h2, h3, h4⟩ : ∃ st, run 4096 bOps = Res.ok st ∧ st.d.allAttributes = [bX] ∧
      binTrain (fun u => (u.toNat : ℚ)) (.dense st.d) [bX] [0, 1] = Res.ok [(bX, ⟨some 5, some 9⟩)] ∧
      ([0, 1].map fun r => (Grid.dense st.d).number (fun u => (u.toNat : ℚ)) bX r) = [5, 9] := by
    refine ⟨_, rfl, ?_, ?_, ?_⟩
    all_goals decide +kernel
  refine ⟨st, _, h1, h3, rfl, ?_⟩
  intro a ha
  rw [List.mem_singleton] at ha
  subst ha
  refine ⟨?_, rfl, 5, 9, rfl, by norm_num, ?_⟩
  · show bX ∈ st.d.allAttributes
    rw [h2]; simp
  · intro r hr
    simp only [List.map_cons, List.map_nil, List.cons.injEq, and_true] at h4
    match r, hr with
    | 0, _ => rw [h4.1]; norm_num
    | 1, _ => rw [h4.2]; norm_num
end Witness

end Golearn
