import Verif.Props.C63
import Verif.Props.C33
import Verif.Props.C62
import Mathlib.Data.List.TakeWhile

/-! # C85: ChiMerge puts a value into its interval -/

namespace Golearn

variable {K : Type}

/-- Interval `i` of the ascending lower ends `ks` holds `v`: it starts at or below `v`, or is the first, and later ones start above. -/
def HoldsValue [LinearOrder K] (ks : List K) (i : Nat) (v : K) : Prop :=
  i < ks.length ∧ (i = 0 ∨ ∃ k, ks[i]? = some k ∧ k ≤ v) ∧ ∀ j k, i < j → ks[j]? = some k → v < k

/-- What the code does: the interval starts below the value, or is the first, and later ones start at or above it. -/
theorem C85_index [LinearOrder K] (ks : List K) (hne : ks ≠ []) (hasc : ks.Pairwise (· < ·)) (v : K) :
    let i := chiIndex v ks 0 0
    i < ks.length ∧ (i = 0 ∨ ∃ k, ks[i]? = some k ∧ k < v) ∧ ∀ j k, i < j → ks[j]? = some k → v ≤ k := by
  intro i
  have hi : i = if (ks.takeWhile fun k => decide (k < v)) = [] then 0 else 0 + (ks.takeWhile fun k => decide (k < v)).length - 1 :=
    chiIndex_eq v ks 0 0
  have hpre := List.takeWhile_append_dropWhile (p := fun k => decide (k < v)) (l := ks)
  generalize hA : ks.takeWhile (fun k => decide (k < v)) = A at hi hpre
  generalize hB : ks.dropWhile (fun k => decide (k < v)) = B at hpre
  have hAlt : ∀ k ∈ A, k < v := by
    intro k hk
    rw [← hA] at hk
    simpa using List.mem_takeWhile_imp hk
  have hBge : ∀ k ∈ B, v ≤ k := by
    cases hB' : B with
    | nil => simp
    | cons b bs =>
      have hb : v ≤ b := by
        have := List.head?_dropWhile_not (fun k => decide (k < v)) ks
        rw [hB, hB'] at this
        simpa using this
      rw [← hpre, hB', List.pairwise_append, List.pairwise_cons] at hasc
      intro k hk
      rcases List.mem_cons.1 hk with rfl | hk
      · exact hb
      · exact hb.trans (hasc.2.1.1 k hk).le
  have hlen : ks.length = A.length + B.length := by rw [← hpre, List.length_append]
  have hpos : 0 < ks.length := List.length_pos_iff.2 hne
  by_cases hAe : A = []
  · rw [if_pos hAe] at hi
    refine ⟨by omega, Or.inl hi, ?_⟩
    intro j k _ hk
    rw [← hpre, hAe, List.nil_append] at hk
    exact hBge k (List.mem_of_getElem? hk)
  · rw [if_neg hAe] at hi
    have hAp : 0 < A.length := List.length_pos_iff.2 hAe
    refine ⟨by omega, Or.inr ?_, ?_⟩
    · have : i < A.length := by omega
      refine ⟨A[i], ?_, hAlt _ (List.getElem_mem _)⟩
      rw [← hpre, List.getElem?_append_left this, List.getElem?_eq_getElem this]
    · intro j k hj hk
      rw [← hpre, List.getElem?_append_right (by omega)] at hk
      exact hBge k (List.mem_of_getElem? hk)

/-- The claim. -/
def FindsInterval (K : Type) [LinearOrder K] : Prop :=
  ∀ (ks : List K) (v : K), ks ≠ [] → ks.Pairwise (· < ·) → HoldsValue ks (chiIndex v ks 0 0) v

/-- It fails for the lower end of every interval but the first: the value is put into the interval before. -/
theorem C85_lower_end [LinearOrder K] (ks : List K) (hasc : ks.Pairwise (· < ·)) (i : Nat) (v : K) (hv : ks[i + 1]? = some v) :
    chiIndex v ks 0 0 = i := by
  have hne : ks ≠ [] := by rintro rfl; simp at hv
  obtain ⟨h1, h2, h3⟩ := C85_index ks hne hasc v
  have hget : ∀ (a b : Nat) (x y : K), ks[a]? = some x → ks[b]? = some y → (a < b → x < y) := by
    intro a b x y hx hy hab
    rw [List.pairwise_iff_getElem] at hasc
    obtain ⟨ha, rfl⟩ := List.getElem?_eq_some_iff.1 hx
    obtain ⟨hb, rfl⟩ := List.getElem?_eq_some_iff.1 hy
    exact hasc a b ha hb hab
  generalize chiIndex v ks 0 0 = j at h1 h2 h3
  have hlen : i + 1 < ks.length := by
    obtain ⟨h, _⟩ := List.getElem?_eq_some_iff.1 hv
    exact h
  rcases Nat.lt_trichotomy j i with hlt | heq | hgt
  · have hi : ks[i]? = some ks[i] := List.getElem?_eq_getElem (by omega)
    have := h3 i _ hlt hi
    have := hget i (i + 1) _ _ hi hv (by omega)
    order
  · exact heq
  · rcases h2 with rfl | ⟨k, hk, hkv⟩
    · omega
    · rcases Nat.lt_or_ge (i + 1) j with h | h
      · have := hget (i + 1) j _ _ hv hk h
        order
      · have : j = i + 1 := by omega
        subst this
        rw [hv, Option.some.injEq] at hk
        order

theorem C85_refuted : ¬ FindsInterval ℚ := by
  intro h
  obtain ⟨_, _, h3⟩ := h [1, 2] 2 (by simp) (by decide +kernel)
  exact absurd (h3 1 2 (by decide +kernel) rfl) (lt_irrefl _)

/-- The claim holds for every value that is not the lower end of an interval after the first. -/
theorem C85_partial [LinearOrder K] (ks : List K) (v : K) (hne : ks ≠ []) (hasc : ks.Pairwise (· < ·)) (hv : ∀ k ∈ ks.tail, v ≠ k) :
    HoldsValue ks (chiIndex v ks 0 0) v := by
  obtain ⟨h1, h2, h3⟩ := C85_index ks hne hasc v
  refine ⟨h1, ?_, ?_⟩
  · rcases h2 with h | ⟨k, hk, hkv⟩
    · exact Or.inl h
    · exact Or.inr ⟨k, hk, hkv.le⟩
  · intro j k hj hk
    refine lt_of_le_of_ne (h3 j k hj hk) (hv k ?_)
    match ks, hne with
    | x :: xs, _ =>
      have : j = j - 1 + 1 := by omega
      rw [this, List.getElem?_cons_succ] at hk
      exact List.mem_of_getElem? hk

example : ([1, 2, 4] : List ℚ).Pairwise (· < ·) ∧ (∀ k ∈ ([1, 2, 4] : List ℚ).tail, (3 : ℚ) ≠ k) ∧ chiIndex (3 : ℚ) [1, 2, 4] 0 0 = 1 ∧
    chiIndex (4 : ℚ) [1, 2, 4] 0 0 = 1 ∧ chiIndex (0 : ℚ) [1, 2, 4] 0 0 = 0 := by decide +kernel

/-- The training data are affected whenever there are two intervals: for each interval but the first there are examples that were counted in
it and are put into the one before. -/
theorem C85_training [Field K] [LinearOrder K] (below : Nat → K → Bool) (minrows maxrows : Int) (examples : List (K × String))
    (hasc : examples.Pairwise fun x y => x.1 ≤ y.1) (out : List (FreqEntry K))
    (hout : chiMergeTable below minrows maxrows (tableOf examples) = Res.ok out) (i : Nat) (hi : i + 1 < out.length) :
    ∃ x ∈ examples, HoldsValue (out.map FreqEntry.value) (i + 1) x.1 ∧ chiIndex x.1 (out.map FreqEntry.value) 0 0 = i := by
  obtain ⟨out', h1, h2, h3, h4, h5, h6⟩ := C63_merge below minrows maxrows (tableOf examples) (tableOf_spec examples).ok
  rw [hout, Res.ok.injEq] at h1
  subst h1
  have hci := coarser_intervals h4 (tableOf_intervals examples hasc)
  have hmem : out[i + 1].value ∈ (tableOf examples).map FreqEntry.value :=
    h5.subset (List.mem_map.2 ⟨_, List.getElem_mem _, rfl⟩)
  obtain ⟨x, hx, e⟩ := List.mem_map.1 (((tableOf_spec examples).values _).1 hmem)
  have hget : (out.map FreqEntry.value)[i + 1]? = some x.1 := by
    rw [List.getElem?_map, List.getElem?_eq_getElem hi, Option.map_some, e]
  refine ⟨x, hx, ⟨by simpa using hi, Or.inr ⟨x.1, hget, le_rfl⟩, ?_⟩, C85_lower_end _ hci.1 i x.1 hget⟩
  intro j k hj hk
  obtain ⟨hj', rfl⟩ := List.getElem?_eq_some_iff.1 hk
  obtain ⟨hi', hx'⟩ := List.getElem?_eq_some_iff.1 hget
  rw [← hx']
  exact List.pairwise_iff_getElem.1 hci.1 _ _ _ _ hj

/-- The filtered data set: same rows; other columns are shown as they are; a chosen column is a category of the same name and shows in every
row the number that `C85_index` describes. -/
theorem C85_grid [Field K] [LinearOrder K] (val : U64 → K) (fmt : K → String) (g : Grid) (n : Nat) (P : g.Presents n) (T : g.typed n)
    (hd : g.distinct) (hnames : (g.allAttributes.map Attr.name).Nodup) (chosen : List Attr)
    (hch : ∀ a ∈ chosen, a ∈ g.allAttributes ∧ a.isFloat = true) (m : GoMap Attr (List (FreqEntry K))) (fresh : Nat → Nat) :
    let f := chiFilter val fmt g.allAttributes chosen fresh m
    (Grid.newFiltered g f).Presents n ∧
    (∀ a ∈ g.allAttributes, a ∉ chosen → a ∈ (Grid.newFiltered g f).allAttributes ∧
      ∀ r, r < n → (Grid.newFiltered g f).cell a r = g.cell a r) ∧
    ∀ a ∈ chosen, ∃ b ∈ (Grid.newFiltered g f).allAttributes, b.name = a.name ∧ b.body = .cat a.name (chiLabels fmt m a) ∧
      ∀ r, r < n → (Grid.newFiltered g f).cell b r =
        stored (chiIndex (g.number val a r) (((m.get? a).getD []).map FreqEntry.value) 0 0) := by
  intro f
  have hcell : ∀ a ∈ chosen, ∀ r, r < n → ∃ u, unpackFloatBits (g.cell a r) = Res.ok u ∧ g.number val a r = val u := by
    intro a ha r hr
    obtain ⟨h1, h2⟩ := hch a ha
    obtain ⟨w, hw⟩ := unpack_typed T h1 h2 hr
    exact ⟨w, hw, by unfold Grid.number; rw [hw]⟩
  have htot : ∀ a ∈ g.allAttributes, ∀ b, ∀ r, r < n → ∃ v, chiTransform val chosen m a b (g.cell a r) = Res.ok v := by
    intro a ha b r hr
    unfold chiTransform
    by_cases hc : a ∈ chosen
    · rw [if_pos hc]
      obtain ⟨u, hu, _⟩ := hcell a hc r hr
      rw [hu]
      exact ⟨_, rfl⟩
    · rw [if_neg hc]
      exact ⟨_, rfl⟩
  obtain ⟨F, hpass⟩ := disc_fits (src := g) (n := n) chosen (chiLabels fmt m) fresh (chiTransform val chosen m) hnames htot
  have F' : FilterFits g f n := F
  have hattrs : f.attrs = discAttrs g.allAttributes chosen (chiLabels fmt m) fresh := rfl
  have P' := (C33_iteration_partial g n P hd f F' fun a ha => absurd ha (hpass a)).1
  obtain ⟨h1, _, _, _, h5⟩ := C33_get g n P hd f F'
  have hread : ∀ p ∈ f.attrs, p.new ∈ (Grid.newFiltered g f).allAttributes ∧ ∀ r, r < n →
      chiTransform val chosen m p.old p.new (g.cell p.old r) = Res.ok ((Grid.newFiltered g f).cell p.new r) := by
    intro p hp
    have hm := (h1 p.new).2 (Or.inr ⟨p, hp, rfl⟩)
    refine ⟨hm, ?_⟩
    intro r hr
    obtain ⟨s, hs, hg⟩ := h5 p hp
    obtain ⟨v, hv, ht⟩ := hg r hr
    have := (P'.get_spec hm hs).2 r hr
    rw [hv, Res.ok.injEq] at this
    rw [← this]
    exact ht
  have hfind : ∀ a ∈ g.allAttributes, ∃ p ∈ f.attrs, p.old = a := by
    intro a ha
    have hold : f.attrs.map FAttr.old = g.allAttributes := by rw [hattrs]; exact discAttrs_old _ _ _ _
    rw [← hold] at ha
    obtain ⟨p, hp, e⟩ := List.mem_map.1 ha
    exact ⟨p, hp, e⟩
  refine ⟨P', ?_, ?_⟩
  · intro a ha hc
    obtain ⟨p, hp, rfl⟩ := hfind a ha
    have hnew : p.new = p.old := (discAttrs_mem (hattrs ▸ hp)).2.2.2 hc
    obtain ⟨k1, k2⟩ := hread p hp
    rw [hnew] at k1 k2
    refine ⟨k1, ?_⟩
    intro r hr
    have := k2 r hr
    unfold chiTransform at this
    rw [if_neg hc, Res.ok.injEq] at this
    exact this.symm
  · intro a hc
    obtain ⟨ha, hfl⟩ := hch a hc
    obtain ⟨p, hp, rfl⟩ := hfind a ha
    have hbody := (discAttrs_mem (hattrs ▸ hp)).2.2.1 hc
    obtain ⟨k1, k2⟩ := hread p hp
    refine ⟨p.new, k1, (discAttrs_mem (hattrs ▸ hp)).2.1, hbody, ?_⟩
    intro r hr
    obtain ⟨u, hu, e⟩ := hcell p.old hc r hr
    have := k2 r hr
    unfold chiTransform at this
    rw [if_pos hc, hu, Res.map_ok, ← e, Res.ok.injEq] at this
    rw [← this]
    rfl

/-- If the lower ends are printed differently, every value is shown as the lower end of its interval. -/
theorem C85_labels [LinearOrder K] (fmt : K → String) (ks : List K) (hne : ks ≠ []) (hlen : ks.length < 2 ^ 64) (hasc : ks.Pairwise (· < ·))
    (hfmt : (ks.map fmt).Nodup) (v : K) :
    ∃ k, ks[chiIndex v ks 0 0]? = some k ∧
      catGetString (addLabels [] (ks.map fmt)) (stored (chiIndex v ks 0 0)) = Res.ok (fmt k) := by
  obtain ⟨h1, _, _⟩ := C85_index ks hne hasc v
  refine ⟨_, List.getElem?_eq_getElem h1, ?_⟩
  unfold catGetString stored
  rw [C01_unpack_pack, Res.bind_ok, addLabels_nodup [] _ (by simpa using hfmt), List.nil_append, BitVec.toNat_ofNat,
    Nat.mod_eq_of_lt (by omega), List.getElem?_map, List.getElem?_eq_getElem h1]
  rfl

end Golearn
