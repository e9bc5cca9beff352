import Verif.Spec.Pages
import Verif.Proofs.Pages
import Verif.Model.Frame

/-! # C134: the storage groups that AddAttribute chooses -/

namespace Golearn

theorem sameKind_of_name {a b : Attr} (h : kindName a = kindName b) : SameKind a b := by
  unfold kindName at h
  unfold SameKind Attr.isFloat Attr.isCat Attr.isBin
  rcases ha : a.body with _ | _ | _ <;> rcases hb : b.body with _ | _ | _ <;> simp_all

theorem kindName_of_same {a b : Attr} (h : SameKind a b) : kindName a = kindName b := by
  unfold kindName
  unfold SameKind Attr.isFloat Attr.isCat Attr.isBin at h
  rcases ha : a.body with _ | _ | _ <;> rcases hb : b.body with _ | _ | _ <;> simp_all

theorem addSpecs_paged {pg : Nat} : ∀ (as : List Attr) {d : Dense}, Paged pg d →
    ∃ d' specs, addSpecs pg d as = Res.ok (d', specs) ∧ Paged pg d' ∧ d'.attributes = d.attributes ++ as ∧
      ∀ k, IsKind k → kindCount d' k = kindCount d k + as.countP (fun a => decide (k = kindName a))
  | [], d, P => ⟨d, [], rfl, P, by simp, by simp⟩
  | a :: as, d, P => by
    obtain ⟨d1, sp, h1, P1, ha1, hc1⟩ := paged_add P a
    obtain ⟨d2, sps, h2, P2, ha2, hc2⟩ := addSpecs_paged as P1
    refine ⟨d2, sp :: sps, by simp [addSpecs, h1, h2, Res.bind, Res.map], P2, by rw [ha2, ha1]; simp, ?_⟩
    intro k hk
    rw [hc2 k hk, hc1 k hk, List.countP_cons]
    simp only [decide_eq_true_eq]
    omega

theorem addSpecs_new {pg : Nat} (as : List Attr) {d : Dense} {specs : List Spec}
    (h : addSpecs pg Dense.new as = Res.ok (d, specs)) :
    Paged pg d ∧ d.attributes = as ∧ ∀ k, IsKind k → kindCount d k = as.countP (fun a => decide (k = kindName a)) := by
  obtain ⟨d', s', h', P, ha, hc⟩ := addSpecs_paged as (paged_new pg)
  rw [h] at h'
  simp only [Res.ok.injEq, Prod.mk.injEq] at h'
  obtain ⟨rfl, rfl⟩ := h'
  refine ⟨P, by rw [ha]; simp [Dense.new], ?_⟩
  intro k hk
  rw [hc k hk]
  have : kindCount Dense.new k = 0 := by unfold kindCount Dense.new; split <;> simp
  omega

/-- Adding any attributes to a new table works, and the table then has exactly these attributes, in this order. -/
theorem C134_add (pg : Nat) (as : List Attr) :
    ∃ d specs, addSpecs pg Dense.new as = Res.ok (d, specs) ∧ d.attributes = as ∧ specs.length = as.length := by
  obtain ⟨d', s', h', P, ha, hc⟩ := addSpecs_paged as (paged_new pg)
  refine ⟨d', s', h', by rw [ha]; simp [Dense.new], ?_⟩
  have : ∀ (as : List Attr) (d d' : Dense) (s : List Spec), addSpecs pg d as = Res.ok (d', s) → s.length = as.length := by
    intro as
    induction as with
    | nil => intro d d' s h; simp only [addSpecs, Res.ok.injEq, Prod.mk.injEq] at h; rw [← h.2]; rfl
    | cons a as ih =>
      intro d d' s h
      simp only [addSpecs] at h
      obtain ⟨p, _, h⟩ := Res.bind_eq_ok.1 h
      obtain ⟨q, hq, he⟩ := Res.map_eq_ok.1 h
      simp only [Prod.mk.injEq] at he
      rw [← he.2, List.length_cons, ih _ _ _ hq, List.length_cons]
  exact this as _ _ _ h'

/-- A row of a group that AddAttribute chose is never larger than a page, and a group holds only attributes of one kind. A page is
a multiple of eight bytes. -/
theorem C134_page {pg : Nat} (h0 : 0 < pg) (h8 : 8 ∣ pg) (as : List Attr) {d : Dense} {specs : List Spec}
    (h : addSpecs pg Dense.new as = Res.ok (d, specs)) :
    ∀ g ∈ d.ags, g.rowSize ≤ pg ∧ g.attrs ≠ [] ∧ ∀ a ∈ g.attrs, ∀ b ∈ g.attrs, SameKind a b := by
  obtain ⟨P, _, _⟩ := addSpecs_new as h
  obtain ⟨m, rfl⟩ := h8
  have hm : 0 < m := by omega
  intro g hg
  obtain ⟨i, hi, rfl⟩ := List.mem_iff_getElem.1 hg
  obtain ⟨k, j, hk, hget⟩ := P.at'.named i hi
  obtain ⟨h1, h2, h3⟩ := P.at'.content k j i _ hk hget (List.getElem?_eq_getElem hi)
  refine ⟨?_, P.used _ hg, fun a ha b hb => sameKind_of_name ((h3 a ha).trans (h3 b hb).symm)⟩
  have hle := inGroup_le hm k (kindCount d k) j
  unfold Group.rowSize
  rw [h1, h2]
  split at hle
  · rename_i hb
    simp only [hb, if_true]
    rw [hb] at hle
    omega
  · rename_i hb
    simp only [hb, if_false]
    omega

/-- Tables whose rows fit into a page per kind have one group per kind: attributes of the same kind are then in the same group. -/
theorem C134_few {m : Nat} (hm : 0 < m) (as : List Attr) (hfew : AtMostOfEachKind (m - 1) as) {d : Dense} {specs : List Spec}
    (h : addSpecs (8 * m) Dense.new as = Res.ok (d, specs)) :
    d.ags.length ≤ 3 ∧ ∀ (i j : Nat) (g g' : Group), d.ags[i]? = some g → d.ags[j]? = some g' →
      (∃ a ∈ g.attrs, ∃ b ∈ g'.attrs, SameKind a b) → i = j := by
  obtain ⟨P, _, hcnt⟩ := addSpecs_new as h
  have hn : ∀ k, IsKind k → kindCount d k ≤ m - 1 := by
    intro k hk
    rw [hcnt k hk]
    obtain ⟨hf, hc, hb⟩ := hfew
    rcases hk with rfl | rfl | rfl
    · refine le_trans (le_of_eq (List.countP_congr ?_)) hc
      intro a _; unfold kindName Attr.isCat; rcases a.body with _ | _ | _ <;> simp
    · refine le_trans (le_of_eq (List.countP_congr ?_)) hf
      intro a _; unfold kindName Attr.isFloat; rcases a.body with _ | _ | _ <;> simp
    · refine le_trans (le_of_eq (List.countP_congr ?_)) hb
      intro a _; unfold kindName Attr.isBin; rcases a.body with _ | _ | _ <;> simp
  have hzero : ∀ i (hi : i < d.ags.length), ∃ k, IsKind k ∧ d.agMap.get? (pageGroup k 0) = some i ∧
      ∀ a ∈ d.ags[i].attrs, kindName a = k := by
    intro i hi
    obtain ⟨k, j, hk, hget⟩ := P.at'.named i hi
    obtain ⟨h1, h2, h3⟩ := P.at'.content k j i _ hk hget (List.getElem?_eq_getElem hi)
    have hpos : 0 < inGroup (8 * m) k (kindCount d k) j := by
      rw [← h2]; exact List.length_pos_of_ne_nil (P.used _ (List.getElem_mem hi))
    have hj : j = 0 := by
      unfold inGroup at hpos
      obtain ⟨x, hx⟩ := List.exists_mem_of_length_pos hpos
      simp only [List.mem_filter, List.mem_range, decide_eq_true_eq] at hx
      obtain ⟨hx, rfl⟩ := hx
      have := hn k hk
      unfold kindGroup
      split
      · rw [Nat.div_div_eq_div_mul]; exact Nat.div_eq_of_lt (by omega)
      · exact Nat.div_eq_of_lt (by omega)
    subst hj
    exact ⟨k, hk, hget, h3⟩
  refine ⟨?_, ?_⟩
  · by_contra hlt
    push Not at hlt
    obtain ⟨k0, hk0, h0, _⟩ := hzero 0 (by omega)
    obtain ⟨k1, hk1, h1, _⟩ := hzero 1 (by omega)
    obtain ⟨k2, hk2, h2, _⟩ := hzero 2 (by omega)
    obtain ⟨k3, hk3, h3, _⟩ := hzero 3 (by omega)
    have key : ∀ {k k' : String} {i i' : Nat}, d.agMap.get? (pageGroup k 0) = some i → d.agMap.get? (pageGroup k' 0) = some i' →
        i ≠ i' → k ≠ k' := by
      rintro k k' i i' h h' hne rfl
      rw [h] at h'
      exact hne (Option.some.inj h')
    have e01 := key h0 h1 (by decide)
    have e02 := key h0 h2 (by decide)
    have e03 := key h0 h3 (by decide)
    have e12 := key h1 h2 (by decide)
    have e13 := key h1 h3 (by decide)
    have e23 := key h2 h3 (by decide)
    rcases hk0 with rfl | rfl | rfl <;> rcases hk1 with rfl | rfl | rfl <;> rcases hk2 with rfl | rfl | rfl <;>
      rcases hk3 with rfl | rfl | rfl <;> simp at e01 e02 e03 e12 e13 e23
  · rintro i j g g' hi hj ⟨a, ha, b, hb, hs⟩
    obtain ⟨hi', rfl⟩ := List.getElem?_eq_some_iff.1 hi
    obtain ⟨hj', rfl⟩ := List.getElem?_eq_some_iff.1 hj
    obtain ⟨k, _, h1, h2⟩ := hzero i hi'
    obtain ⟨k', _, h1', h2'⟩ := hzero j hj'
    have : k = k' := (h2 a ha).symm.trans ((kindName_of_same hs).trans (h2' b hb))
    subst this
    rw [h1] at h1'
    exact Option.some.inj h1'

/-- A table with a row larger than a page is split: its groups exist and are within the page. -/
example : (addSpecs 16 Dense.new [⟨1, .float "a" 2⟩, ⟨2, .float "b" 2⟩, ⟨3, .float "c" 2⟩, ⟨4, .bin "d"⟩]).map
    (fun p => p.1.ags.map fun g => (g.attrs.length, g.rowSize)) = Res.ok [(1, 8), (2, 16), (1, 1)] := by decide +kernel

/-- A table with few attributes has one group per kind. -/
example : AtMostOfEachKind (512 - 1) [⟨1, .float "a" 2⟩, ⟨2, .cat "b" []⟩, ⟨3, .float "c" 2⟩, ⟨4, .bin "d"⟩] ∧
    (addSpecs 4096 Dense.new [⟨1, .float "a" 2⟩, ⟨2, .cat "b" []⟩, ⟨3, .float "c" 2⟩, ⟨4, .bin "d"⟩]).map
    (fun p => p.1.ags.length) = Res.ok 3 := by
  refine ⟨⟨by decide, by decide, by decide⟩, by decide +kernel⟩

/-- The choice goes by the name of the group alone. After CreateAttributeGroup("FLOAT0", 0), which makes a group of bits, a float
attribute is put into that group: its eight bytes can be stored without an error, and a single byte comes back. -/
theorem C134_named_refuted (pg : Nat) (h : 8 < pg) :
    ((Dense.new.createAttributeGroup "FLOAT0" 0).bind fun d => (d.addAttribute pg ⟨1, .float "x" 2⟩).bind fun p =>
      ((p.1.extend 1).set p.2 0 [1, 2, 3, 4, 5, 6, 7, 8]).bind fun d3 => d3.get p.2 0) = Res.ok [1] := by
  have h1 : 8 / pg = 0 := Nat.div_eq_of_lt h
  have h2 : "FLOAT" ++ toString (8 / pg) = "FLOAT0" := by rw [h1]; decide +kernel
  simp only [Dense.createAttributeGroup, Dense.createGroup, Dense.new, Dense.addAttribute, Dense.chooseGroup, Res.bind, Nat.zero_add,
    Bool.false_eq_true, if_false, h2]
  decide +kernel

end Golearn
