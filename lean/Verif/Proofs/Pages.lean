import Verif.Proofs.Dense
import Verif.Proofs.Mat
import Mathlib.Order.Interval.Finset.Nat

/-! # Sizes of the attribute groups that `AddAttribute` makes -/

namespace Golearn

/-- The first part of the name of the group. -/
def kindName (a : Attr) : String :=
  match a.body with
  | .cat _ _ => "CAT"
  | .float _ _ => "FLOAT"
  | .bin _ => "BIN"

/-- The number of the group of the `n`-th attribute of a kind. -/
def kindGroup (pg : Nat) (k : String) (n : Nat) : Nat := if k = "BIN" then n / 8 / pg else 8 * n / pg

/-- How many of the first `n` attributes of a kind are in the group `j`. -/
def inGroup (pg : Nat) (k : String) (n j : Nat) : Nat := ((List.range n).filter fun i => kindGroup pg k (i + 1) = j).length

theorem inGroup_succ (pg : Nat) (k : String) (n j : Nat) :
    inGroup pg k (n + 1) j = inGroup pg k n j + if kindGroup pg k (n + 1) = j then 1 else 0 := by
  unfold inGroup
  rw [List.range_succ, List.filter_append, List.length_append]
  congr 1
  by_cases h : kindGroup pg k (n + 1) = j <;> simp [h]

theorem inGroup_le {m : Nat} (hm : 0 < m) (k : String) (n j : Nat) :
    inGroup (8 * m) k n j ≤ if k = "BIN" then 64 * m else m := by
  have key : ∀ w : Nat, 0 < w → (∀ i, kindGroup (8 * m) k i = i / w) → inGroup (8 * m) k n j ≤ w := by
    intro w hw hk
    unfold inGroup
    have hnd : ((List.range n).filter fun i => kindGroup (8 * m) k (i + 1) = j).Nodup := List.nodup_range.filter _
    rw [← List.toFinset_card_of_nodup hnd]
    refine le_trans (Finset.card_le_card (t := Finset.Ico (j * w - 1) (j * w - 1 + w)) ?_) (by simp)
    intro i hi
    simp only [List.mem_toFinset, List.mem_filter, decide_eq_true_eq, hk] at hi
    obtain ⟨_, hi⟩ := hi
    rw [Nat.div_eq_iff hw] at hi
    rw [Finset.mem_Ico]
    omega
  split
  · rename_i h
    apply key (64 * m) (by omega)
    intro i
    unfold kindGroup
    rw [if_pos h, Nat.div_div_eq_div_mul]
    congr 1; omega
  · rename_i h
    apply key m hm
    intro i
    unfold kindGroup
    rw [if_neg h]
    exact Nat.mul_div_mul_left _ _ (by omega)

/-- The names of groups. -/
def pageGroup (k : String) (j : Nat) : String := k ++ toString j

/-- The kinds. -/
def IsKind (k : String) : Prop := k = "CAT" ∨ k = "FLOAT" ∨ k = "BIN"

theorem kindName_isKind (a : Attr) : IsKind (kindName a) := by
  unfold kindName IsKind
  split <;> simp

theorem pageGroup_inj {k k' : String} (hk : IsKind k) (hk' : IsKind k') {j j' : Nat} (h : pageGroup k j = pageGroup k' j') :
    k = k' ∧ j = j' := by
  unfold pageGroup at h
  have h' := congrArg String.toList h
  rw [String.toList_append, String.toList_append] at h'
  have : k = k' := by
    rcases hk with rfl | rfl | rfl <;> rcases hk' with rfl | rfl | rfl <;> first | rfl | simp at h'
  subst this
  refine ⟨rfl, toString_nat_inj (String.ext_iff.2 (List.append_cancel_left h'))⟩

/-- Number of attributes of a kind. -/
def kindCount (d : Dense) (k : String) : Nat :=
  if k = "CAT" then d.catRowSizeBytes / 8 else if k = "FLOAT" then d.floatRowSizeBytes / 8 else d.binRowSizeBits

/-- What holds of the groups of a table that has `cnt k` attributes of each kind `k`. -/
structure PagedAt (pg : Nat) (agMap : GoMap String Nat) (ags : List Group) (cnt : String → Nat) : Prop where
  inj : ∀ s t i, agMap.get? s = some i → agMap.get? t = some i → s = t
  bound : ∀ s i, agMap.get? s = some i → i < ags.length
  named : ∀ i, i < ags.length → ∃ k j, IsKind k ∧ agMap.get? (pageGroup k j) = some i
  content : ∀ k j i g, IsKind k → agMap.get? (pageGroup k j) = some i → ags[i]? = some g →
    g.kind = (if k = "BIN" then .binary else .fixed 8) ∧ g.attrs.length = inGroup pg k (cnt k) j ∧
      ∀ a ∈ g.attrs, kindName a = k
  missing : ∀ k j, IsKind k → agMap.get? (pageGroup k j) = none → inGroup pg k (cnt k) j = 0

theorem pagedAt_create {pg : Nat} {m : GoMap String Nat} {ags : List Group} {cnt : String → Nat} (P : PagedAt pg m ags cnt)
    {k : String} {j : Nat} (hk : IsKind k) (hn : m.get? (pageGroup k j) = none) :
    PagedAt pg (m.set (pageGroup k j) ags.length) (ags ++ [⟨if k = "BIN" then .binary else .fixed 8, [], []⟩]) cnt := by
  refine ⟨?_, ?_, ?_, ?_, ?_⟩
  · intro s t i hs ht
    rw [GoMap.get?_set] at hs ht
    split at hs <;> split at ht
    · rename_i h1 h2; rw [← h1, ← h2]
    · have := P.bound t i ht
      simp only [Option.some.injEq] at hs; omega
    · have := P.bound s i hs
      simp only [Option.some.injEq] at ht; omega
    · exact P.inj s t i hs ht
  · intro s i hs
    rw [GoMap.get?_set] at hs
    rw [List.length_append, List.length_singleton]
    split at hs
    · simp only [Option.some.injEq] at hs; omega
    · have := P.bound s i hs; omega
  · intro i hi
    rw [List.length_append, List.length_singleton] at hi
    by_cases h : i = ags.length
    · exact ⟨k, j, hk, by rw [GoMap.get?_set, if_pos rfl, h]⟩
    · obtain ⟨k', j', hk', h'⟩ := P.named i (by omega)
      refine ⟨k', j', hk', ?_⟩
      rw [GoMap.get?_set, if_neg ?_, h']
      intro hc; rw [← hc, hn] at h'; cases h'
  · intro k' j' i g hk' hs hg
    rw [GoMap.get?_set] at hs
    split at hs
    · rename_i h1
      obtain ⟨rfl, rfl⟩ := pageGroup_inj hk hk' h1
      simp only [Option.some.injEq] at hs
      subst hs
      rw [List.getElem?_append_right (le_refl _), Nat.sub_self] at hg
      simp only [List.getElem?_cons_zero, Option.some.injEq] at hg
      subst hg
      exact ⟨rfl, (P.missing k j hk hn).symm, by simp⟩
    · have hb := P.bound _ i hs
      rw [List.getElem?_append_left hb] at hg
      exact P.content k' j' i g hk' hs hg
  · intro k' j' hk' hs
    rw [GoMap.get?_set] at hs
    split at hs
    · cases hs
    · exact P.missing k' j' hk' hs

theorem pagedAt_push {pg : Nat} {m : GoMap String Nat} {ags : List Group} {cnt cnt' : String → Nat} (P : PagedAt pg m ags cnt)
    {a : Attr} {id : Nat} {g : Group}
    (hm : m.get? (pageGroup (kindName a) (kindGroup pg (kindName a) (cnt (kindName a) + 1))) = some id)
    (hg : ags[id]? = some g) (hc : ∀ k, IsKind k → cnt' k = cnt k + if k = kindName a then 1 else 0) :
    PagedAt pg m (ags.set id (g.addAttr a)) cnt' := by
  have hka := kindName_isKind a
  refine ⟨P.inj, ?_, ?_, ?_, ?_⟩
  · intro s i hs
    rw [List.length_set]
    exact P.bound s i hs
  · intro i hi
    rw [List.length_set] at hi
    exact P.named i hi
  · intro k j i g' hk hs hg'
    have hlt := P.bound _ i hs
    rw [List.getElem?_set] at hg'
    split at hg'
    · rename_i h1
      subst h1
      rw [if_pos hlt] at hg'
      simp only [Option.some.injEq] at hg'
      subst hg'
      obtain ⟨rfl, rfl⟩ := pageGroup_inj hka hk (P.inj _ _ _ hm hs)
      obtain ⟨h1, h2, h3⟩ := P.content _ _ _ g hk hs hg
      refine ⟨h1, ?_, ?_⟩
      · rw [hc _ hk, if_pos rfl, inGroup_succ, if_pos rfl, ← h2]
        simp [Group.addAttr]
      · intro b hb
        simp only [Group.addAttr, List.mem_append, List.mem_singleton] at hb
        rcases hb with hb | rfl
        · exact h3 b hb
        · rfl
    · rename_i h1
      obtain ⟨h2, h3, h4⟩ := P.content k j i g' hk hs hg'
      refine ⟨h2, ?_, h4⟩
      rw [hc _ hk]
      split
      · rename_i hk2
        subst hk2
        rw [inGroup_succ, if_neg, h3, Nat.add_zero]
        intro h5
        rw [h5, hs] at hm
        simp only [Option.some.injEq] at hm
        exact h1 hm.symm
      · exact h3
  · intro k j hk hs
    rw [hc _ hk]
    split
    · rename_i hk2
      subst hk2
      rw [inGroup_succ, if_neg, P.missing _ j hk hs]
      intro h5
      rw [h5, hs] at hm
      cases hm
    · exact P.missing k j hk hs

/-- What holds of a table to which attributes have been added. -/
structure Paged (pg : Nat) (d : Dense) : Prop where
  open' : d.fixed = false
  cat8 : 8 ∣ d.catRowSizeBytes
  float8 : 8 ∣ d.floatRowSizeBytes
  used : ∀ g ∈ d.ags, g.attrs ≠ []
  at' : PagedAt pg d.agMap d.ags (kindCount d)

theorem paged_new (pg : Nat) : Paged pg Dense.new := by
  refine ⟨rfl, by simp [Dense.new], by simp [Dense.new], by simp [Dense.new], ?_, ?_, ?_, ?_, ?_⟩
  · intro s t i h; simp [Dense.new, GoMap.get?] at h
  · intro s i h; simp [Dense.new, GoMap.get?] at h
  · intro i h; simp [Dense.new] at h
  · intro k j i g _ h; simp [Dense.new, GoMap.get?] at h
  · intro k j _ _
    have : kindCount Dense.new k = 0 := by unfold kindCount Dense.new; split <;> simp
    rw [this]; rfl

/-- What `chooseGroup` changes. -/
theorem chooseGroup_spec (pg : Nat) (d : Dense) (a : Attr) (P : Paged pg d) :
    ∃ d1, d.chooseGroup pg a = (d1, pageGroup (kindName a) (kindGroup pg (kindName a) (kindCount d (kindName a) + 1)),
        decide (kindName a = "BIN")) ∧ d1.agMap = d.agMap ∧ d1.ags = d.ags ∧ d1.fixed = d.fixed ∧ d1.agRevMap = d.agRevMap ∧ d1.attributes = d.attributes ∧
      8 ∣ d1.catRowSizeBytes ∧ 8 ∣ d1.floatRowSizeBytes ∧
      ∀ k, IsKind k → kindCount d1 k = kindCount d k + if k = kindName a then 1 else 0 := by
  obtain ⟨c, hc⟩ := P.cat8
  obtain ⟨f, hf⟩ := P.float8
  unfold Dense.chooseGroup kindName
  rcases hb : a.body with ⟨n, p⟩ | ⟨n, vs⟩ | n
  · refine ⟨{ d with floatRowSizeBytes := d.floatRowSizeBytes + 8 }, ?_, rfl, rfl, rfl, rfl, rfl, P.cat8, ?_, ?_⟩
    · have h1 : 8 * (d.floatRowSizeBytes / 8 + 1) = d.floatRowSizeBytes + 8 := by omega
      simp [pageGroup, kindGroup, kindCount, h1]
    · simp [hf]
    · rintro k (rfl | rfl | rfl) <;> simp [kindCount, hf]
  · refine ⟨{ d with catRowSizeBytes := d.catRowSizeBytes + 8 }, ?_, rfl, rfl, rfl, rfl, rfl, ?_, P.float8, ?_⟩
    · have h1 : 8 * (d.catRowSizeBytes / 8 + 1) = d.catRowSizeBytes + 8 := by omega
      simp [pageGroup, kindGroup, kindCount, h1]
    · simp [hc]
    · rintro k (rfl | rfl | rfl) <;> simp [kindCount, hc]
  · refine ⟨{ d with binRowSizeBits := d.binRowSizeBits + 1 }, ?_, rfl, rfl, rfl, rfl, rfl, P.cat8, P.float8, ?_⟩
    · simp [pageGroup, kindGroup, kindCount]
    · rintro k (rfl | rfl | rfl) <;> simp [kindCount]

/-- Adding an attribute keeps the groups in order. -/
theorem paged_add {pg : Nat} {d : Dense} (P : Paged pg d) (a : Attr) :
    ∃ d' sp, d.addAttribute pg a = Res.ok (d', sp) ∧ Paged pg d' ∧ d'.attributes = d.attributes ++ [a] ∧
      ∀ k, IsKind k → kindCount d' k = kindCount d k + if k = kindName a then 1 else 0 := by
  obtain ⟨d1, h1, hm1, ha1, hf1, hr1, hat1, h8, h8', hc1⟩ := chooseGroup_spec pg d a P
  unfold Dense.addAttribute
  rw [if_neg (by simp [P.open']), h1]
  simp only
  rcases hget : d1.agMap.get? (pageGroup (kindName a) (kindGroup pg (kindName a) (kindCount d (kindName a) + 1))) with _ | id
  · simp only [Dense.createGroup, hf1, P.open', Res.bind, GoMap.get?_set, if_true, Bool.false_eq_true, if_false]
    have hP := pagedAt_create P.at' (kindName_isKind a) (by rw [← hm1]; exact hget)
    have hgr : (if (if decide (kindName a = "BIN") = true then 0 else 8) ≠ 0 then
          (⟨.fixed (if decide (kindName a = "BIN") = true then 0 else 8), [], []⟩ : Group) else ⟨.binary, [], []⟩) =
        ⟨if kindName a = "BIN" then .binary else .fixed 8, [], []⟩ := by
      by_cases h : kindName a = "BIN" <;> simp [h]
    rw [hgr]
    have hel : (d1.ags ++ [(⟨if kindName a = "BIN" then .binary else .fixed 8, [], []⟩ : Group)])[d1.ags.length]? =
        some ⟨if kindName a = "BIN" then .binary else .fixed 8, [], []⟩ := by simp
    simp only [Dense.pushAttr, hel]
    refine ⟨_, _, rfl, ⟨rfl, h8, h8', ?_, ?_⟩, by simp [hat1], ?_⟩
    · intro g hg
      simp only [ha1, List.set_append_right _ _ (le_refl _), Nat.sub_self, List.set_cons_zero, List.mem_append,
        List.mem_singleton] at hg
      rcases hg with hg | rfl
      · exact P.used g hg
      · simp [Group.addAttr]
    · have := pagedAt_push (cnt' := kindCount d1) hP (a := a) (id := d.ags.length)
        (g := ⟨if kindName a = "BIN" then .binary else .fixed 8, [], []⟩) (by rw [GoMap.get?_set, if_pos rfl]) (by simp) hc1
      rw [← ha1, ← hm1] at this
      exact this
    · exact hc1
  · simp only [Res.bind, hget]
    have hlt : id < d1.ags.length := by
      rw [ha1]; exact P.at'.bound _ _ (by rw [← hm1]; exact hget)
    have hel : d1.ags[id]? = some d1.ags[id] := List.getElem?_eq_getElem hlt
    simp only [Dense.pushAttr, hel]
    refine ⟨_, _, rfl, ⟨by rw [hf1]; exact P.open', h8, h8', ?_, ?_⟩, by simp [hat1], hc1⟩
    · intro g hg
      rcases List.mem_or_eq_of_mem_set hg with hg | rfl
      · exact P.used g (ha1 ▸ hg)
      · simp [Group.addAttr]
    · have hP := P.at'
      rw [← ha1, ← hm1] at hP
      exact pagedAt_push hP hget hel hc1

end Golearn
