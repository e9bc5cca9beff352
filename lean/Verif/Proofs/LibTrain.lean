import Verif.Proofs.Liblinear
import Verif.Proofs.CartGrid
import Mathlib.Data.List.Nodup

/-! # Lemmas about how liblinear groups the classes -/

namespace Golearn

/-! ## The first loop -/

/-- The classes of the labels `ys`: `L` has every label once, `D` has the class number of every label and `C` says how
often every class number occurs. -/
structure Grouped (ys : List Int) (L : List Int) (C D : List Nat) : Prop where
  nodup : L.Nodup
  occurs : ∀ l ∈ L, l ∈ ys
  class_ : D.map (fun c => L[c]?) = ys.map some
  count : C = (List.range L.length).map fun c => D.count c

theorem grouped_step {ys L : List Int} {C D : List Nat} (h : Grouped ys L C D) (v : Int) :
    (L.findIdx (fun l => decide (l = v)) = L.length →
      Grouped (ys ++ [v]) (L ++ [v]) (C ++ [1]) (D ++ [L.findIdx fun l => decide (l = v)])) ∧
    (L.findIdx (fun l => decide (l = v)) ≠ L.length →
      Grouped (ys ++ [v]) L
        (C.set (L.findIdx fun l => decide (l = v)) (C.getD (L.findIdx fun l => decide (l = v)) 0 + 1))
        (D ++ [L.findIdx fun l => decide (l = v)])) := by
  have hD : ∀ c ∈ D, c < L.length := by
    intro c hc
    have : L[c]? ∈ D.map (fun c => L[c]?) := List.mem_map.2 ⟨c, hc, rfl⟩
    rw [h.class_] at this
    obtain ⟨y, _, hy⟩ := List.mem_map.1 this
    exact (List.getElem?_eq_some_iff.1 hy.symm).1
  constructor
  · intro e
    have hnot : v ∉ L := by
      intro hv
      have := List.findIdx_lt_length_of_exists (xs := L) (p := fun l => decide (l = v)) ⟨v, hv, by simp⟩
      omega
    rw [e]
    refine ⟨?_, ?_, ?_, ?_⟩
    · rw [List.nodup_append]
      refine ⟨h.nodup, by simp, ?_⟩
      intro a ha b hb
      rw [List.mem_singleton.1 hb]
      rintro rfl
      exact hnot ha
    · intro l hl
      rcases List.mem_append.1 hl with hl | hl
      · exact List.mem_append_left _ (h.occurs l hl)
      · exact List.mem_append_right _ hl
    · rw [List.map_append, List.map_append, ← h.class_]
      congr 1
      · apply List.map_congr_left
        intro c hc
        rw [List.getElem?_append_left (hD c hc)]
      · simp
    · rw [h.count, List.length_append, List.length_singleton, List.range_succ, List.map_append]
      congr 1
      · apply List.map_congr_left
        intro c hc
        rw [List.count_append]
        have := List.mem_range.1 hc
        have : L.length ≠ c := by omega
        simp [this]
      · have : D.count L.length = 0 := List.count_eq_zero.2 (fun hc => by have := hD _ hc; omega)
        simp [List.count_append, this]
  · intro e
    have hlt : L.findIdx (fun l => decide (l = v)) < L.length := lt_of_le_of_ne List.findIdx_le_length e
    have hv : L[L.findIdx fun l => decide (l = v)]? = some v := by
      rw [List.getElem?_eq_getElem hlt]
      have := List.findIdx_getElem (xs := L) (p := fun l => decide (l = v)) (w := hlt)
      simpa using this
    refine ⟨h.nodup, fun l hl => List.mem_append_left _ (h.occurs l hl), ?_, ?_⟩
    · rw [List.map_append, List.map_append, ← h.class_]
      simp [hv]
    · generalize L.findIdx (fun l => decide (l = v)) = j at hlt hv ⊢
      rw [h.count]
      apply List.ext_getElem
      · simp
      · intro c h1 h2
        rw [List.getElem_set]
        simp only [List.getElem_map, List.getElem_range, List.count_append]
        by_cases hc : j = c
        · subst hc
          simp [List.getD_eq_getElem?_getD, hlt]
        · rw [if_neg hc]
          simp [hc]

section
variable {K : Type} [Field K] [LinearOrder K]

omit [Field K] [LinearOrder K] in
theorem groupLoop_grouped (toInt : K → Int) (y : List K) (ys0 L : List Int) (C D : List Nat) (h : Grouped ys0 L C D) :
    Grouped (ys0 ++ y.map toInt) (groupLoop toInt y L C D).1 (groupLoop toInt y L C D).2.1 (groupLoop toInt y L C D).2.2 := by
  induction y generalizing ys0 L C D with
  | nil => simpa [groupLoop] using h
  | cons v y ih =>
    unfold groupLoop
    have e : ys0 ++ (v :: y).map toInt = ys0 ++ [toInt v] ++ y.map toInt := by simp
    rw [e]
    simp only
    split
    · next hj => exact ih _ _ _ _ ((grouped_step h (toInt v)).1 hj)
    · next hj => exact ih _ _ _ _ ((grouped_step h (toInt v)).2 hj)

theorem groupSwap_grouped {ys L : List Int} {C D : List Nat} (h : Grouped ys L C D) :
    Grouped ys (groupSwap (L, C, D)).1 (groupSwap (L, C, D)).2.1 (groupSwap (L, C, D)).2.2 := by
  unfold groupSwap
  simp only
  by_cases hL : L = [-1, 1]
  · rw [if_pos hL]
    subst hL
    have hD : ∀ c ∈ D, c = 0 ∨ c = 1 := by
      intro c hc
      have : [-1, (1 : Int)][c]? ∈ D.map (fun c => [-1, (1 : Int)][c]?) := List.mem_map.2 ⟨c, hc, rfl⟩
      rw [h.class_] at this
      obtain ⟨y, _, hy⟩ := List.mem_map.1 this
      have := (List.getElem?_eq_some_iff.1 hy.symm).1
      simp only [List.length_cons, List.length_nil] at this
      omega
    refine ⟨by simp, ?_, ?_, ?_⟩
    · intro l hl
      apply h.occurs
      simp only [List.mem_cons, List.not_mem_nil, or_false] at hl ⊢
      tauto
    · rw [← h.class_, List.map_map]
      apply List.map_congr_left
      intro c hc
      rcases hD c hc with rfl | rfl <;> rfl
    · rw [h.count]
      have e0 : (D.map fun c => if c = 0 then 1 else 0).count 0 = D.count 1 := by
        clear h
        induction D with
        | nil => rfl
        | cons c D ih =>
          rw [List.map_cons, List.count_cons, List.count_cons, ih (fun x hx => hD x (by simp [hx]))]
          rcases hD c (by simp) with rfl | rfl <;> simp
      have e1 : (D.map fun c => if c = 0 then 1 else 0).count 1 = D.count 0 := by
        clear h e0
        induction D with
        | nil => rfl
        | cons c D ih =>
          rw [List.map_cons, List.count_cons, List.count_cons, ih (fun x hx => hD x (by simp [hx]))]
          rcases hD c (by simp) with rfl | rfl <;> simp
      simp [List.range_succ, e0, e1]
  · rw [if_neg hL]
    exact h

/-! ## The second loop -/

theorem groupStarts_get (C : List Nat) (s c : Nat) (hc : c < C.length) :
    (groupStarts C s)[c]? = some (s + (C.take c).sum) := by
  induction C generalizing s c with
  | nil => simp at hc
  | cons x C ih =>
    unfold groupStarts
    cases c with
    | zero => simp
    | succ c =>
      rw [List.getElem?_cons_succ, ih (s + x) c (by simpa using hc), List.take_succ_cons, List.sum_cons]
      congr 1
      omega

theorem take_sum_le {C : List Nat} {a b : Nat} (hab : a < b) (hb : b ≤ C.length) :
    (C.take a).sum + C.getD a 0 ≤ (C.take b).sum := by
  induction b with
  | zero => omega
  | succ b ih =>
    have hlt : b < C.length := by omega
    rw [List.take_succ_eq_append_getElem hlt, List.sum_append]
    rcases Nat.lt_or_ge a b with h | h
    · have := ih h (by omega)
      exact this.trans (Nat.le_add_right _ _)
    · have : a = b := by omega
      subst this
      simp [List.getD_eq_getElem?_getD, hlt]

/-- Where row `i` of class `c` belongs. -/
def place (C D : List Nat) (i : Nat) (c : Nat) : Nat := (C.take c).sum + (D.take i).count c

theorem permLoop_spec (C D : List Nat) :
    ∀ (rest done : List Nat) (start perm : List Nat), D = done ++ rest →
      (∀ c ∈ rest, c < start.length) →
      (∀ c, c < start.length → start[c]? = some ((C.take c).sum + done.count c)) →
      (permLoop rest done.length start perm).length = perm.length ∧
      (∀ i c, D[i]? = some c → done.length ≤ i → place C D i c < perm.length →
        (∀ i' c', D[i']? = some c' → i < i' → place C D i' c' ≠ place C D i c) →
        (permLoop rest done.length start perm)[place C D i c]? = some i) ∧
      (∀ k, (∀ i c, D[i]? = some c → done.length ≤ i → place C D i c ≠ k) →
        (permLoop rest done.length start perm)[k]? = perm[k]?) := by
  intro rest
  induction rest with
  | nil =>
    intro done start perm hD _ _
    refine ⟨rfl, ?_, fun k _ => rfl⟩
    intro i c hi hle
    rw [hD, List.append_nil] at hi
    have := (List.getElem?_eq_some_iff.1 hi).1
    omega
  | cons c rest ih =>
    intro done start perm hD hc hs
    have hc0 := hs c (hc c (by simp))
    have hgd : start.getD c 0 = (C.take c).sum + done.count c := by
      rw [List.getD_eq_getElem?_getD, hc0]; rfl
    have hpl : place C D done.length c = start.getD c 0 := by
      rw [hgd]; unfold place
      rw [hD, List.take_left]
    have hDc : D[done.length]? = some c := by rw [hD]; simp
    obtain ⟨i1, i2, i3⟩ := ih (done ++ [c]) (start.set c (start.getD c 0 + 1)) (perm.set (start.getD c 0) done.length)
      (by rw [hD]; simp) (by intro x hx; rw [List.length_set]; exact hc x (by simp [hx]))
      (by
        intro x hx
        rw [List.length_set] at hx
        rw [List.getElem?_set]
        by_cases hxc : c = x
        · subst hxc
          rw [if_pos rfl, if_pos hx, hgd, List.count_append]
          simp
          omega
        · rw [if_neg hxc, hs x hx, List.count_append]
          simp [hxc])
    rw [List.length_append, List.length_singleton] at i1 i2 i3
    unfold permLoop
    refine ⟨by rw [i1, List.length_set], ?_, ?_⟩
    · intro i d hi hle hlt hlater
      rcases Nat.lt_or_ge done.length i with h | h
      · exact i2 i d hi (by omega) (by rw [List.length_set]; exact hlt) hlater
      · have : i = done.length := by omega
        subst this
        rw [hDc] at hi
        cases hi
        rw [i3 _ (fun i' c' hi' hle' => hlater i' c' hi' (by omega)), hpl]
        rw [hpl] at hlt
        rw [List.getElem?_set_self hlt]
    · intro k hk
      rw [i3 k (fun i' c' hi' hle' => hk i' c' hi' (by omega))]
      have := hk _ _ hDc (le_refl _)
      rw [hpl] at this
      rw [List.getElem?_set_ne this]

theorem sum_counts (D : List Nat) (n : Nat) (h : ∀ c ∈ D, c < n) : ((List.range n).map fun c => D.count c).sum = D.length := by
  induction D with
  | nil =>
    simp
  | cons d D ih =>
    have e : ((List.range n).map fun c => (d :: D).count c) =
        (List.range n).map fun c => D.count c + if c = d then 1 else 0 := by
      apply List.map_congr_left
      intro c _
      rw [List.count_cons]
      by_cases hcd : c = d
      · simp [hcd]
      · simp [hcd, Ne.symm hcd]
    rw [e, List.sum_map_add, ih (fun c hc => h c (by simp [hc])), List.length_cons]
    congr 1
    have hd := h d (by simp)
    clear ih e h
    induction n with
    | zero => omega
    | succ n ih =>
      rw [List.range_succ, List.map_append, List.sum_append]
      by_cases hn : d = n
      · subst hn
        have : ((List.range d).map fun c => if c = d then 1 else 0) = (List.range d).map fun _ => 0 := by
          apply List.map_congr_left
          intro c hc
          rw [if_neg (by have := List.mem_range.1 hc; omega)]
        rw [this]
        simp
      · rw [ih (by omega)]
        simp [Ne.symm hn]

/-- What the permutation is: every row once, and the rows of class `c` stand in the section of `c`. -/
theorem perm_spec {L : List Int} {C D : List Nat} {ys : List Int} (h : Grouped ys L C D) :
    (permLoop D 0 (groupStarts C 0) (List.replicate ys.length 0)).Perm (List.range ys.length) ∧
    ∀ k r c, (permLoop D 0 (groupStarts C 0) (List.replicate ys.length 0))[k]? = some r → c < L.length →
      (D[r]? = some c ↔ (groupStarts C 0).getD c 0 ≤ k ∧ k < (groupStarts C 0).getD c 0 + C.getD c 0) := by
  have hDlen : D.length = ys.length := by
    have := congrArg List.length h.class_
    simpa using this
  have hD : ∀ c ∈ D, c < L.length := by
    intro c hc
    have : L[c]? ∈ D.map (fun c => L[c]?) := List.mem_map.2 ⟨c, hc, rfl⟩
    rw [h.class_] at this
    obtain ⟨y, _, hy⟩ := List.mem_map.1 this
    exact (List.getElem?_eq_some_iff.1 hy.symm).1
  have hClen : C.length = L.length := by rw [h.count]; simp
  have hC : ∀ c, c < L.length → C.getD c 0 = D.count c := by
    intro c hc
    rw [h.count]
    simp [List.getD_eq_getElem?_getD, hc]
  have hsl : (groupStarts C 0).length = C.length := by
    generalize 0 = s
    clear hC hClen h
    induction C generalizing s with
    | nil => rfl
    | cons x C ih => unfold groupStarts; simp [ih]
  have hs : ∀ c, c < (groupStarts C 0).length → (groupStarts C 0)[c]? = some ((C.take c).sum + ([] : List Nat).count c) := by
    intro c hc
    rw [groupStarts_get C 0 c (by omega)]
    simp
  have hsum : C.sum = D.length := by rw [h.count]; exact sum_counts D _ hD
  have hsec : ∀ i c : Nat, D[i]? = some c → (C.take c).sum ≤ place C D i c ∧ place C D i c < (C.take c).sum + C.getD c 0 := by
    intro i c hi
    obtain ⟨hi1, hi2⟩ := List.getElem?_eq_some_iff.1 hi
    have hcL := hD c (hi2 ▸ List.getElem_mem hi1)
    unfold place
    refine ⟨by omega, ?_⟩
    rw [hC c hcL]
    have : D.count c = (D.take i).count c + (D.drop i).count c := by
      rw [← List.count_append, List.take_append_drop]
    have h2 : 0 < (D.drop i).count c := by
      rw [List.count_pos_iff, List.drop_eq_getElem_cons hi1, hi2]
      simp
    omega
  have hcl : ∀ i c : Nat, D[i]? = some c → c < C.length := by
    intro i c hi
    obtain ⟨hi1, hi2⟩ := List.getElem?_eq_some_iff.1 hi
    rw [hClen]
    exact hD c (hi2 ▸ List.getElem_mem hi1)
  have hdis : ∀ c c' k, c < C.length → c' < C.length → (C.take c).sum ≤ k → k < (C.take c).sum + C.getD c 0 →
      (C.take c').sum ≤ k → k < (C.take c').sum + C.getD c' 0 → c = c' := by
    intro c c' k h1 h2 h3 h4 h5 h6
    rcases Nat.lt_trichotomy c c' with hlt | heq | hgt
    · have := take_sum_le hlt h2.le
      omega
    · exact heq
    · have := take_sum_le hgt h1.le
      omega
  have hinj : ∀ i c i' c' : Nat, D[i]? = some c → D[i']? = some c' → i < i' → place C D i' c' ≠ place C D i c := by
    intro i c i' c' hi hi' hlt he
    have s1 := hsec i c hi
    have s2 := hsec i' c' hi'
    have hcc := hdis c c' (place C D i c) (hcl i c hi) (hcl i' c' hi') s1.1 s1.2 (he ▸ s2.1) (he ▸ s2.2)
    subst hcc
    unfold place at he
    obtain ⟨hi1, hi2⟩ := List.getElem?_eq_some_iff.1 hi
    have : (D.take i').count c = (D.take i).count c + ((D.take i').drop i).count c := by
      rw [← List.count_append]
      congr 1
      conv_lhs => rw [← List.take_append_drop i (D.take i')]
      rw [List.take_take, Nat.min_eq_left hlt.le]
    have h2 : 0 < ((D.take i').drop i).count c := by
      rw [List.count_pos_iff, List.mem_iff_getElem?]
      refine ⟨0, ?_⟩
      rw [List.getElem?_drop, List.getElem?_take, if_pos (by omega)]
      simpa using hi
    omega
  have hlt : ∀ i c : Nat, D[i]? = some c → place C D i c < D.length := by
    intro i c hi
    have := (hsec i c hi).2
    have h2 := take_sum_le (C := C) (a := c) (b := C.length) (hcl i c hi) (le_refl _)
    rw [List.take_length, hsum] at h2
    omega
  obtain ⟨p1, p2, _⟩ := permLoop_spec C D D [] (groupStarts C 0) (List.replicate ys.length 0) rfl
    (fun c hc => by rw [hsl, hClen]; exact hD c hc) hs
  rw [List.length_nil] at p1 p2
  generalize permLoop D 0 (groupStarts C 0) (List.replicate ys.length 0) = perm at p1 p2 ⊢
  rw [List.length_replicate] at p1 p2
  have hat : ∀ i c : Nat, D[i]? = some c → perm[place C D i c]? = some i := by
    intro i c hi
    exact p2 i c hi (Nat.zero_le _) (by rw [← hDlen]; exact hlt i c hi) (fun i' c' hi' hl => hinj i c i' c' hi hi' hl)
  have hperm : perm.Perm (List.range ys.length) := by
    apply List.Perm.symm
    refine (List.Nodup.subperm List.nodup_range ?_).perm_of_length_le (by rw [p1]; simp)
    intro i hi
    have hi' : i < D.length := by rw [hDlen]; exact List.mem_range.1 hi
    exact List.mem_of_getElem? (hat i D[i] (List.getElem?_eq_getElem hi'))
  refine ⟨hperm, ?_⟩
  intro k r c hk hcL
  have hnd : perm.Nodup := hperm.nodup_iff.2 List.nodup_range
  have hr : r < D.length := by
    rw [hDlen]
    exact List.mem_range.1 (hperm.subset (List.mem_of_getElem? hk))
  have hrk : k = place C D r D[r] := by
    have h1 := hat r D[r] (List.getElem?_eq_getElem hr)
    obtain ⟨hk1, hk2⟩ := List.getElem?_eq_some_iff.1 hk
    obtain ⟨hk3, hk4⟩ := List.getElem?_eq_some_iff.1 h1
    exact (List.Nodup.getElem_inj_iff hnd).1 (hk2.trans hk4.symm)
  have hst : (groupStarts C 0).getD c 0 = (C.take c).sum := by
    rw [List.getD_eq_getElem?_getD, groupStarts_get C 0 c (by omega)]
    simp
  rw [hst]
  have hs' := hsec r D[r] (List.getElem?_eq_getElem hr)
  constructor
  · intro hrc
    obtain ⟨_, e⟩ := List.getElem?_eq_some_iff.1 hrc
    rw [hrk]
    rw [e] at hs' ⊢
    exact hs'
  · rintro ⟨h1, h2⟩
    rw [hrk] at h1 h2
    have := hdis c D[r] _ (by omega) (hcl r _ (List.getElem?_eq_getElem hr)) h1 h2 hs'.1 hs'.2
    rw [List.getElem?_eq_getElem hr, this]

/-! ## Training -/

omit [LinearOrder K] in
theorem weightedC_length (label : List Int) (ws : List K) (i : Nat) (wc : List K) :
    (weightedC label ws i wc).length = wc.length := by
  induction ws generalizing i wc with
  | nil => rfl
  | cons w ws ih =>
    unfold weightedC
    simp only
    rw [ih]
    split
    · rfl
    · rw [List.length_set]

omit [LinearOrder K] in
theorem weightedC_get {label : List Int} (hnd : label.Nodup) (ws : List K) (i : Nat) (wc : List K) (hlen : wc.length = label.length)
    (j : Nat) (l : Int) (hj : label[j]? = some l) :
    (weightedC label ws i wc).getD j 0 =
      wc.getD j 0 * (if (i : Int) ≤ l then ws.getD (l - i).toNat 1 else 1) := by
  obtain ⟨hj1, hj2⟩ := List.getElem?_eq_some_iff.1 hj
  induction ws generalizing i wc with
  | nil => simp [weightedC]
  | cons w ws ih =>
    unfold weightedC
    simp only
    have hstep : (if label.findIdx (fun l => decide ((i : Int) = l)) = label.length then wc else
        wc.set (label.findIdx fun l => decide ((i : Int) = l))
          (wc.getD (label.findIdx fun l => decide ((i : Int) = l)) 0 * w)).getD j 0 =
        wc.getD j 0 * (if (i : Int) = l then w else 1) := by
      by_cases hil : (i : Int) = l
      · have hf : label.findIdx (fun l => decide ((i : Int) = l)) = j := by
          have hlt := List.findIdx_lt_length_of_exists (xs := label) (p := fun l => decide ((i : Int) = l))
            ⟨l, hj2 ▸ List.getElem_mem hj1, by simpa using hil⟩
          have := List.findIdx_getElem (xs := label) (p := fun l => decide ((i : Int) = l)) (w := hlt)
          apply (List.Nodup.getElem_inj_iff hnd (hi := hlt) (hj := hj1)).1
          rw [hj2, ← hil]
          simpa [eq_comm] using this
        rw [hf, if_neg (by omega), if_pos hil]
        simp [List.getD_eq_getElem?_getD, hlen, hj1]
      · rw [if_neg hil, mul_one]
        split
        · rfl
        · next hne =>
          have hlt := lt_of_le_of_ne (List.findIdx_le_length (xs := label) (p := fun l => decide ((i : Int) = l))) hne
          have hx := List.findIdx_getElem (xs := label) (p := fun l => decide ((i : Int) = l)) (w := hlt)
          have : label.findIdx (fun l => decide ((i : Int) = l)) ≠ j := by
            intro h
            simp only [h, hj2] at hx
            exact hil (by simpa using hx)
          simp [List.getD_eq_getElem?_getD, List.getElem?_set_ne this]
    rw [ih (i + 1) _ (by split <;> simp [hlen]), hstep, mul_assoc]
    congr 1
    by_cases h1 : (i : Int) = l
    · rw [if_pos h1, if_neg (by push_cast; omega), if_pos (by omega)]
      have : (l - (i : Int)).toNat = 0 := by omega
      rw [this]
      simp
    · rw [if_neg h1, one_mul]
      by_cases h2 : (i : Int) ≤ l
      · rw [if_pos h2, if_pos (by push_cast; omega)]
        have : (l - (i : Int)).toNat = (l - ((i + 1 : Nat) : Int)).toNat + 1 := by push_cast; omega
        rw [this, List.getD_cons_succ]
      · rw [if_neg h2, if_neg (by push_cast; omega)]

omit [Field K] [LinearOrder K] in
theorem mapM_some {α β : Type} (f : α → Option β) (g : α → β) (l : List α) (h : ∀ a ∈ l, f a = some (g a)) :
    l.mapM f = some (l.map g) := by
  induction l with
  | nil => rfl
  | cons a l ih =>
    rw [List.mapM_cons, h a (by simp), ih (fun b hb => h b (by simp [hb]))]
    rfl

theorem train_spec (solve : Solver K) (toInt : K → Int) (prob : LProblem K) (param : LParam K) (weights : List K)
    (rows : List (List (FNode K))) (hl : prob.l = rows.length) (hy : prob.y.length = rows.length)
    (hrow : ∀ i r, rows[i]? = some r → prob.row i = some r) (hb : prob.bias < 0) :
    ∃ m, train solve toInt prob param weights = Res.ok m ∧ m.bias = prob.bias ∧ m.nrFeature = prob.n ∧
      TrainedOn solve param weights prob.n rows (prob.y.map toInt) m := by
  have G := groupSwap_grouped (groupLoop_grouped toInt prob.y [] [] [] []
    ⟨List.nodup_nil, by simp, rfl, rfl⟩)
  rw [List.nil_append] at G
  simp only [Prod.mk.eta] at G
  obtain ⟨p1, p2⟩ := perm_spec G
  rw [List.length_map] at p1 p2
  have hgl : (groupClasses toInt prob.y).label = (groupSwap (groupLoop toInt prob.y [] [] [])).1 := rfl
  have hgc : (groupClasses toInt prob.y).count = (groupSwap (groupLoop toInt prob.y [] [] [])).2.1 := rfl
  have hgs : (groupClasses toInt prob.y).start = groupStarts (groupSwap (groupLoop toInt prob.y [] [] [])).2.1 0 := rfl
  have hgp : (groupClasses toInt prob.y).perm = permLoop (groupSwap (groupLoop toInt prob.y [] [] [])).2.2 0
    (groupStarts (groupSwap (groupLoop toInt prob.y [] [] [])).2.1 0) (List.replicate prob.y.length 0) := rfl
  rw [← hgp] at p1 p2
  rw [← hgl] at G p2
  rw [← hgs, ← hgc] at p2
  rw [← hgc] at G
  generalize (groupSwap (groupLoop toInt prob.y [] [] [])).2.2 = D at G p2
  -- the rows
  have hmap : (List.range prob.l).mapM prob.row = some rows := by
    rw [mapM_some prob.row (fun i => rows.getD i []) _ (by
      intro i hi
      have hi' : i < rows.length := by rw [← hl]; exact List.mem_range.1 hi
      rw [hrow i rows[i] (List.getElem?_eq_getElem hi')]
      simp [List.getD_eq_getElem?_getD, hi'])]
    congr 1
    apply List.ext_getElem
    · simp [hl]
    · intro i h1 h2
      simp [List.getD_eq_getElem?_getD, h2]
  have hpm : permuted rows (groupClasses toInt prob.y).perm =
      some ((groupClasses toInt prob.y).perm.map fun i => rows.getD i []) := by
    unfold permuted
    apply mapM_some
    intro i hi
    have hi' : i < rows.length := by rw [← hy]; exact List.mem_range.1 (p1.subset hi)
    simp [List.getD_eq_getElem?_getD, hi']
  have hDlen : D.length = prob.y.length := by
    have := congrArg List.length G.class_
    simpa using this
  have hsub : ∀ i l, (groupClasses toInt prob.y).label[i]? = some l →
      (((groupClasses toInt prob.y).perm.map fun i => rows.getD i []).zipIdx.map fun p =>
        (p.1, decide ((groupClasses toInt prob.y).start.getD i 0 ≤ p.2 ∧
          p.2 < (groupClasses toInt prob.y).start.getD i 0 + (groupClasses toInt prob.y).count.getD i 0)) : SubProblem K).Perm
        (oneVsRest rows (prob.y.map toInt) l) := by
    intro i l hi
    obtain ⟨hi1, hi2⟩ := List.getElem?_eq_some_iff.1 hi
    have e1 : (((groupClasses toInt prob.y).perm.map fun i => rows.getD i []).zipIdx.map fun p =>
        (p.1, decide ((groupClasses toInt prob.y).start.getD i 0 ≤ p.2 ∧
          p.2 < (groupClasses toInt prob.y).start.getD i 0 + (groupClasses toInt prob.y).count.getD i 0)) : SubProblem K) =
        (groupClasses toInt prob.y).perm.map fun r => (rows.getD r [], decide ((prob.y.map toInt)[r]? = some l)) := by
      apply List.ext_getElem
      · simp
      · intro k h1 h2
        simp only [List.getElem_map, List.getElem_zipIdx, Nat.zero_add]
        congr 1
        rw [decide_eq_decide]
        have hk : k < (groupClasses toInt prob.y).perm.length := by simpa using h2
        have := p2 k ((groupClasses toInt prob.y).perm[k]) i (List.getElem?_eq_getElem hk) hi1
        rw [← this]
        generalize (groupClasses toInt prob.y).perm[k] = r
        have hc := congrArg (fun L => L[r]?) G.class_
        simp only [List.getElem?_map] at hc
        rw [List.getElem?_map]
        cases hDr : D[r]? with
        | none =>
          rw [hDr] at hc
          simp only [Option.map_none] at hc
          cases hyr : prob.y[r]? with
          | none => simp
          | some v => rw [hyr] at hc; simp at hc
        | some c =>
          rw [hDr] at hc
          cases hyr : prob.y[r]? with
          | none => rw [hyr] at hc; simp at hc
          | some v =>
            rw [hyr] at hc
            simp only [Option.map_some, Option.some.injEq] at hc ⊢
            constructor
            · rintro rfl
              rw [hi] at hc
              exact (Option.some.inj hc).symm
            · intro hv
              rw [hv] at hc
              obtain ⟨hc1, hc2⟩ := List.getElem?_eq_some_iff.1 hc
              exact (List.Nodup.getElem_inj_iff G.nodup).1 (hc2.trans hi2.symm)
    rw [e1]
    have e2 : oneVsRest rows (prob.y.map toInt) l =
        (List.range prob.y.length).map fun r => (rows.getD r [], decide ((prob.y.map toInt)[r]? = some l)) := by
      unfold oneVsRest
      apply List.ext_getElem
      · simp [hy]
      · intro k h1 h2
        have hk : k < prob.y.length := by simpa using h2
        have hk' : k < rows.length := by omega
        simp [List.getD_eq_getElem?_getD, hk, hk']
    rw [e2]
    exact p1.map _
  have hocc : ∀ l, l ∈ (groupClasses toInt prob.y).label ↔ l ∈ prob.y.map toInt := by
    intro l
    refine ⟨G.occurs l, ?_⟩
    intro h
    have : some l ∈ (prob.y.map toInt).map some := List.mem_map.2 ⟨l, h, rfl⟩
    rw [← G.class_] at this
    obtain ⟨c, _, hc⟩ := List.mem_map.1 this
    exact List.mem_of_getElem? hc
  have hwc : ∀ i l, (groupClasses toInt prob.y).label[i]? = some l →
      (weightedC (groupClasses toInt prob.y).label weights 0
        (List.replicate (groupClasses toInt prob.y).label.length param.c)).getD i 0 = param.c * svcWeight weights l := by
    intro i l hi
    rw [weightedC_get G.nodup weights 0 _ (by simp) i l hi]
    obtain ⟨hi1, _⟩ := List.getElem?_eq_some_iff.1 hi
    simp [List.getD_eq_getElem?_getD, hi1, svcWeight]
  unfold train
  simp only
  rw [hmap]
  simp only [Option.bind_some]
  rw [hpm]
  simp only [Option.elim_some, if_neg (not_le.2 hb)]
  by_cases h2 : (groupClasses toInt prob.y).label.length = 2
  · rw [if_pos h2]
    refine ⟨_, rfl, rfl, rfl, ⟨h2.symm, G.nodup, hocc, ?_, ?_⟩⟩
    · intro l0 l1 hL
      simp only at hL
      have h0 : (groupClasses toInt prob.y).label[0]? = some l0 := by rw [hL]; rfl
      have h1 : (groupClasses toInt prob.y).label[1]? = some l1 := by rw [hL]; rfl
      refine ⟨_, hsub 0 l0 h0, ?_⟩
      simp only
      rw [hwc 0 l0 h0, hwc 1 l1 h1]
    · intro hne
      exact absurd h2 hne
  · rw [if_neg h2]
    refine ⟨_, rfl, rfl, rfl, ⟨rfl, G.nodup, hocc, ?_, ?_⟩⟩
    · intro l0 l1 hL
      simp only at hL
      rw [hL] at h2
      exact absurd rfl h2
    · intro _ i l hi
      simp only at hi
      refine ⟨_, hsub i l hi, ?_⟩
      intro j
      obtain ⟨hi1, _⟩ := List.getElem?_eq_some_iff.1 hi
      have e1 : (j * (groupClasses toInt prob.y).label.length + i) % (groupClasses toInt prob.y).label.length = i := by
        rw [Nat.mul_comm, Nat.mul_add_mod]
        exact Nat.mod_eq_of_lt hi1
      have e2 : (j * (groupClasses toInt prob.y).label.length + i) / (groupClasses toInt prob.y).label.length = j := by
        rw [Nat.mul_comm, Nat.mul_add_div (by omega), Nat.div_eq_of_lt hi1, Nat.add_zero]
      simp only
      rw [e1, e2, hwc i l hi]

end

end Golearn
