import Verif.Model.Discretise
import Verif.Proofs.Convert
import Verif.Proofs.KnnSearch
import Verif.Props.C29
import Mathlib.Algebra.Order.Floor.Ring
import Mathlib.Algebra.Order.Field.Basic
import Mathlib.Data.List.Dedup
import Mathlib.Tactic.Linarith
import Mathlib.Tactic.FieldSimp
import Mathlib.Tactic.Ring
import Mathlib.Tactic.NormNum

/-! # Lemmas about the discretising filters -/

namespace Golearn

/-! ## Labels -/

theorem catIntern_snd (vals : List String) (s : String) :
    (catIntern vals s).2 = if s ∈ vals then vals else vals ++ [s] := by
  unfold catIntern
  rw [findValue_eq]
  by_cases h : s ∈ vals <;> simp [h]

/-- Distinct labels are all added, in order. -/
theorem addLabels_nodup (vals ls : List String) (h : (vals ++ ls).Nodup) : addLabels vals ls = vals ++ ls := by
  induction ls generalizing vals with
  | nil => simp [addLabels]
  | cons s ss ih =>
    have hs : s ∉ vals := by
      intro hm
      rw [List.nodup_append] at h
      exact h.2.2 s hm s (by simp) rfl
    rw [addLabels, catIntern_snd, if_neg hs, ih (vals ++ [s]) (by simpa using h)]
    simp

/-- The labels are distinct, and are those that were added. -/
theorem addLabels_spec (vals ls : List String) (h : vals.Nodup) :
    (addLabels vals ls).Nodup ∧ ∀ x, x ∈ addLabels vals ls ↔ x ∈ vals ∨ x ∈ ls := by
  induction ls generalizing vals with
  | nil => simp [addLabels, h]
  | cons s ss ih =>
    rw [addLabels, catIntern_snd]
    by_cases hs : s ∈ vals
    · rw [if_pos hs]
      obtain ⟨h1, h2⟩ := ih vals h
      refine ⟨h1, ?_⟩
      intro x
      rw [h2]
      constructor
      · rintro (h | h) <;> simp [h]
      · rintro (h | h)
        · exact Or.inl h
        · rcases List.mem_cons.1 h with rfl | h
          · exact Or.inl hs
          · exact Or.inr h
    · rw [if_neg hs]
      obtain ⟨h1, h2⟩ := ih (vals ++ [s]) (by
        rw [List.nodup_append]
        refine ⟨h, by simp, ?_⟩
        intro a ha b hb
        rw [List.mem_singleton] at hb
        rintro rfl
        exact hs (hb ▸ ha))
      refine ⟨h1, ?_⟩
      intro x
      rw [h2]
      simp only [List.mem_append, List.mem_singleton, List.mem_cons]
      tauto

/-- Labels that are not distinct leave fewer values than labels. -/
theorem addLabels_short (ls : List String) (h : ¬ ls.Nodup) : (addLabels [] ls).length < ls.length := by
  obtain ⟨h1, h2⟩ := addLabels_spec [] ls List.nodup_nil
  have hsub : (addLabels [] ls).Subperm ls.dedup :=
    h1.subperm fun x hx => by rw [List.mem_dedup]; simpa using (h2 x).1 hx
  refine lt_of_le_of_lt hsub.length_le ?_
  rcases lt_or_eq_of_le (List.dedup_sublist ls).length_le with hlt | he
  · exact hlt
  · exfalso
    apply h
    have := (List.dedup_sublist ls).eq_of_length he
    rw [← this]
    exact List.nodup_dedup ls

/-! ## Ranges -/

section
variable {K : Type} [LinearOrder K]

theorem range_see (l : List K) (mn mx : K) :
    ∃ a b, l.foldl Range.see ⟨some mn, some mx⟩ = ⟨some a, some b⟩ ∧ a ∈ mn :: l ∧ b ∈ mx :: l ∧
      (∀ v ∈ mn :: l, a ≤ v) ∧ ∀ v ∈ mx :: l, v ≤ b := by
  induction l generalizing mn mx with
  | nil => exact ⟨mn, mx, rfl, by simp, by simp, by simp, by simp⟩
  | cons v vs ih =>
    have e : Range.see ⟨some mn, some mx⟩ v = ⟨some (min mn v), some (max mx v)⟩ := by
      unfold Range.see
      simp only [Range.mk.injEq]
      constructor
      · split
        · rename_i h; rw [min_eq_right h.le]
        · rename_i h; rw [min_eq_left (not_lt.1 h)]
      · split
        · rename_i h; rw [max_eq_right h.le]
        · rename_i h; rw [max_eq_left (not_lt.1 h)]
    rw [List.foldl_cons, e]
    obtain ⟨a, b, h1, h2, h3, h4, h5⟩ := ih (min mn v) (max mx v)
    refine ⟨a, b, h1, ?_, ?_, ?_, ?_⟩
    · rcases List.mem_cons.1 h2 with h | h
      · rcases min_choice mn v with h' | h' <;> simp [h, h']
      · simp [h]
    · rcases List.mem_cons.1 h3 with h | h
      · rcases max_choice mx v with h' | h' <;> simp [h, h']
      · simp [h]
    · intro u hu
      have h0 := h4 (min mn v) (by simp)
      rcases List.mem_cons.1 hu with rfl | hu
      · exact h0.trans (min_le_left _ _)
      · rcases List.mem_cons.1 hu with rfl | hu
        · exact h0.trans (min_le_right _ _)
        · exact h4 u (by simp [hu])
    · intro u hu
      have h0 := h5 (max mx v) (by simp)
      rcases List.mem_cons.1 hu with rfl | hu
      · exact (le_max_left _ _).trans h0
      · rcases List.mem_cons.1 hu with rfl | hu
        · exact (le_max_right _ _).trans h0
        · exact h5 u (by simp [hu])

/-- The range of the values that were seen. -/
theorem range_of (l : List K) (hl : l ≠ []) :
    ∃ a b, l.foldl Range.see ⟨none, none⟩ = ⟨some a, some b⟩ ∧ a ∈ l ∧ b ∈ l ∧ ∀ v ∈ l, a ≤ v ∧ v ≤ b := by
  cases l with
  | nil => exact absurd rfl hl
  | cons v vs =>
    obtain ⟨a, b, h1, h2, h3, h4, h5⟩ := range_see vs v v
    exact ⟨a, b, h1, h2, h3, fun u hu => ⟨h4 u hu, h5 u hu⟩⟩

/-- One row. -/
theorem binRow_spec (val : U64 → K) (u : Attr → U64) (specs : List Spec) (raws : Attr → Bytes)
    (hf : ∀ s ∈ specs, s.attr.isFloat = true) (hu : ∀ s ∈ specs, unpackFloatBits (raws s.attr) = Res.ok (u s.attr))
    (hnd : (specs.map Spec.attr).Nodup) (m : GoMap Attr (Range K)) :
    ∃ m', binRow val specs (specs.map fun s => raws s.attr) m = Res.ok m' ∧
      ∀ a, m'.get? a = if a ∈ specs.map Spec.attr then some (((m.get? a).getD ⟨none, none⟩).see (val (u a))) else m.get? a := by
  induction specs generalizing m with
  | nil => exact ⟨m, rfl, by simp⟩
  | cons s ss ih =>
    rw [List.map_cons, List.nodup_cons] at hnd
    rw [List.map_cons, binRow, if_pos (hf s (by simp)), hu s (by simp), Res.bind_ok]
    obtain ⟨m', h1, h2⟩ := ih (fun t ht => hf t (by simp [ht])) (fun t ht => hu t (by simp [ht])) hnd.2
      (m.set s.attr (((m.get? s.attr).getD ⟨none, none⟩).see (val (u s.attr))))
    refine ⟨m', h1, ?_⟩
    intro a
    rw [h2 a, GoMap.get?_set]
    by_cases e : s.attr = a
    · subst e
      rw [if_neg hnd.1, if_pos rfl, if_pos (by simp)]
    · rw [if_neg e]
      have : a ∈ (s :: ss).map Spec.attr ↔ a ∈ ss.map Spec.attr := by
        rw [List.map_cons, List.mem_cons]
        exact ⟨fun h => h.resolve_left (fun e' => e e'.symm), Or.inr⟩
      simp only [this]

end

theorem foldl_none_get {K : Type} (l : List Attr) (m : GoMap Attr (Range K)) (a : Attr) :
    (l.foldl (fun m a => m.set a (⟨none, none⟩ : Range K)) m).get? a = if a ∈ l then some ⟨none, none⟩ else m.get? a := by
  induction l generalizing m with
  | nil => simp
  | cons b bs ih =>
    rw [List.foldl_cons, ih, GoMap.get?_set]
    by_cases h1 : a ∈ bs
    · simp [h1]
    · by_cases h2 : b = a
      · simp [h2]
      · simp [h1, h2, Ne.symm h2]

/-- Training looks at every row of every chosen column. -/
theorem binTrain_spec {K : Type} [Field K] [LinearOrder K] (val : U64 → K) {g : Grid} {n : Nat} (P : g.Presents n) (T : g.typed n)
    (chosen : List Attr) (hsub : ∀ a ∈ chosen, a ∈ g.allAttributes) (hf : ∀ a ∈ chosen, a.isFloat = true)
    (hnd : chosen.Nodup) (order : List Nat) (ho : g.RowOrder order) :
    ∃ m, binTrain val g chosen order = Res.ok m ∧
      ∀ a, m.get? a = if a ∈ chosen then some ((order.map fun r => g.number val a r).foldl Range.see ⟨none, none⟩) else none := by
  obtain ⟨specs, hsp⟩ := P.resolve_total hsub
  have hR : specs.map Spec.attr = chosen ∧ ∀ s ∈ specs, s.attr ∈ g.allAttributes ∧ g.getAttribute s.attr = Res.ok s := by
    have h := hsp
    unfold Grid.resolveUnsorted at h
    rw [mapRes_eq_ok] at h
    clear hsp hnd hf
    induction h with
    | nil => exact ⟨rfl, by simp⟩
    | @cons a s as ss h1 h2 ih =>
      obtain ⟨i1, i2⟩ := ih fun b hb => hsub b (by simp [hb])
      obtain ⟨t, t1, t2, _⟩ := P.read a (hsub a (by simp))
      rw [t1] at h1
      simp only [Res.ok.injEq] at h1
      subst h1
      refine ⟨by rw [List.map_cons, i1, t2], ?_⟩
      intro s hs
      rcases List.mem_cons.1 hs with rfl | hs
      · rw [t2]; exact ⟨hsub a (by simp), t1⟩
      · exact i2 s hs
  obtain ⟨hmap, hin⟩ := hR
  obtain ⟨i1, i2⟩ := P.iter specs fun s hs => ⟨s.attr, (hin s hs).1, (hin s hs).2⟩
  have hp := P.order order ho
  have hchosen : ∀ s ∈ specs, s.attr ∈ chosen := fun s hs => hmap ▸ List.mem_map.2 ⟨s, hs, rfl⟩
  have hcell : ∀ a ∈ chosen, ∀ r, r < n → ∃ w, unpackFloatBits (g.cell a r) = Res.ok w ∧ g.number val a r = val w := by
    intro a ha r hr
    obtain ⟨w, hw⟩ := unpack_typed T (hsub a ha) (hf a ha) hr
    exact ⟨w, hw, by unfold Grid.number; rw [hw]⟩
  have hrow : ∀ r, r < n → ∀ m : GoMap Attr (Range K), ∃ m', binRow val specs (specs.map fun s => g.cell s.attr r) m = Res.ok m' ∧
      ∀ a, m'.get? a = if a ∈ chosen then some (((m.get? a).getD ⟨none, none⟩).see (g.number val a r)) else m.get? a := by
    intro r hr m
    have hu : ∀ a, ∃ w, a ∈ chosen → unpackFloatBits (g.cell a r) = Res.ok w ∧ g.number val a r = val w := by
      intro a
      by_cases ha : a ∈ chosen
      · obtain ⟨w, hw⟩ := hcell a ha r hr
        exact ⟨w, fun _ => hw⟩
      · exact ⟨0, fun h => absurd h ha⟩
    choose u hu using hu
    obtain ⟨m', h1, h2⟩ := binRow_spec val u specs (fun a => g.cell a r) (fun s hs => hf _ (hchosen s hs))
      (fun s hs => (hu _ (hchosen s hs)).1) (by rw [hmap]; exact hnd) m
    refine ⟨m', h1, ?_⟩
    intro a
    rw [h2 a, hmap]
    by_cases ha : a ∈ chosen
    · rw [if_pos ha, if_pos ha, (hu a ha).2]
    · rw [if_neg ha, if_neg ha]
  have hloop : ∀ (order : List Nat) (m : GoMap Attr (Range K)), (∀ r ∈ order, r < n) → ∃ m',
      mapOver (g.rowVals specs) (fun m row _ => (binRow val specs row m).map fun m => (m, Ctl.cont)) m order = Res.ok (m', false) ∧
      ∀ a, m'.get? a = if a ∈ chosen ∧ order ≠ [] then
        some ((order.map fun r => g.number val a r).foldl Range.see ((m.get? a).getD ⟨none, none⟩)) else m.get? a := by
    intro order
    induction order with
    | nil => intro m _; exact ⟨m, rfl, by simp⟩
    | cons r rs ih =>
      intro m hlt
      have hr := hlt r (by simp)
      obtain ⟨m1, e1, e2⟩ := hrow r hr m
      obtain ⟨m2, f1, f2⟩ := ih m1 fun q hq => hlt q (by simp [hq])
      refine ⟨m2, ?_, ?_⟩
      · simp only [mapOver, i2 r hr, Res.bind_ok, e1, Res.map_ok, f1]
      · intro a
        rw [f2 a, e2 a]
        by_cases ha : a ∈ chosen
        · by_cases hrs : rs = []
          · subst hrs; simp [ha]
          · simp [ha, hrs]
        · simp [ha]
  obtain ⟨m', e1, e2⟩ := hloop order (chosen.foldl (fun m a => m.set a ⟨none, none⟩) [])
    fun r hr => List.mem_range.1 (hp.subset hr)
  refine ⟨m', ?_, ?_⟩
  · unfold binTrain discSpecs
    rw [hsp, Res.bind_ok]
    unfold Grid.mapOverRows
    rw [i1, Res.bind_ok, e1]
  · intro a
    rw [e2 a, foldl_none_get]
    by_cases ha : a ∈ chosen
    · by_cases hne : order = []
      · subst hne; simp [ha]
      · simp [ha, hne]
    · simp [ha, GoMap.get?]

/-! ## Bins -/

section
variable {K : Type} [Field K] [LinearOrder K] [IsStrictOrderedRing K] [FloorRing K]

theorem binOf_low (bins : Nat) (mn mx v : K) (h : v ≤ mn) : binOf bins ⟨some mn, some mx⟩ v = 0 := by
  unfold binOf
  simp only [if_pos h]

/-- A bin holds the values from its lower end to its upper end, both moved down by a ten-thousandth of the width. -/
theorem binOf_iff (bins : Nat) (hb : 0 < bins) (mn mx v : K) (h : mn < mx) (hv : mn < v) (k : Int) :
    binOf bins ⟨some mn, some mx⟩ v = k ↔
      mn + k * ((mx - mn) / bins) ≤ v + (mx - mn) / bins / 10000 ∧
      v + (mx - mn) / bins / 10000 < mn + (k + 1) * ((mx - mn) / bins) := by
  have hbK : (0 : K) < bins := by exact_mod_cast hb
  have hd : 0 < (mx - mn) / bins := div_pos (by linarith) hbK
  unfold binOf
  simp only [if_neg (not_le.2 hv)]
  set d := (mx - mn) / (bins : K)
  rw [Int.floor_eq_iff]
  have e : (v - mn) / d + 1 / 10000 = (v - mn + d / 10000) / d := by
    field_simp
  rw [e, le_div_iff₀ hd, div_lt_iff₀ hd]
  constructor <;> rintro ⟨h1, h2⟩ <;> constructor <;> linarith

theorem binOf_nonneg (bins : Nat) (hb : 0 < bins) (mn mx v : K) (h : mn < mx) :
    0 ≤ binOf bins ⟨some mn, some mx⟩ v := by
  have hbK : (0 : K) < bins := by exact_mod_cast hb
  have hd : 0 < (mx - mn) / bins := div_pos (by linarith) hbK
  unfold binOf
  simp only
  split
  · exact le_rfl
  · rename_i hv
    apply Int.floor_nonneg.2
    have := div_nonneg (by linarith : 0 ≤ v - mn) hd.le
    linarith

theorem binOf_mono (bins : Nat) (hb : 0 < bins) (mn mx v w : K) (h : mn < mx) (hvw : v ≤ w) :
    binOf bins ⟨some mn, some mx⟩ v ≤ binOf bins ⟨some mn, some mx⟩ w := by
  by_cases hv : v ≤ mn
  · rw [binOf_low bins mn mx v hv]
    exact binOf_nonneg bins hb mn mx w h
  · have hbK : (0 : K) < bins := by exact_mod_cast hb
    have hd : 0 < (mx - mn) / bins := div_pos (by linarith) hbK
    unfold binOf
    simp only [if_neg hv, if_neg (fun hw => hv (hvw.trans hw))]
    apply Int.floor_mono
    have := (div_le_div_iff_of_pos_right hd).2 (by linarith : v - mn ≤ w - mn)
    linarith

/-- The largest value has the number `bins`, one more than there are bins. -/
theorem binOf_max (bins : Nat) (hb : 0 < bins) (mn mx : K) (h : mn < mx) : binOf bins ⟨some mn, some mx⟩ mx = bins := by
  have hbK : (0 : K) < bins := by exact_mod_cast hb
  have hd : 0 < (mx - mn) / bins := div_pos (by linarith) hbK
  rw [binOf_iff bins hb mn mx mx h h]
  have e : (bins : K) * ((mx - mn) / bins) = mx - mn := by field_simp
  have e2 : (((bins : Int) : K)) = (bins : K) := by push_cast; rfl
  rw [e2]
  constructor
  · rw [e]
    have := div_pos hd (by norm_num : (0 : K) < 10000)
    linarith
  · rw [add_mul, e, one_mul]
    have : (mx - mn) / bins / 10000 < (mx - mn) / bins := by
      rw [div_lt_iff₀ (by norm_num)]
      linarith
    linarith

theorem binOf_le (bins : Nat) (hb : 0 < bins) (mn mx v : K) (h : mn < mx) (hv : v ≤ mx) :
    binOf bins ⟨some mn, some mx⟩ v ≤ bins := by
  have := binOf_mono bins hb mn mx v mx h hv
  rwa [binOf_max bins hb mn mx h] at this

end

/-! ## The filtered data set -/

theorem discAttrs_old (all chosen : List Attr) (labels : Attr → List String) (fresh : Nat → Nat) :
    (discAttrs all chosen labels fresh).map FAttr.old = all := by
  unfold discAttrs
  rw [List.map_map]
  have : (FAttr.old ∘ fun p : Attr × Nat => (⟨p.1, if p.1 ∈ chosen then ⟨fresh p.2, .cat p.1.name (labels p.1)⟩ else p.1⟩ : FAttr)) = Prod.fst := by
    funext p; rfl
  rw [this, List.zipIdx_map_fst]

theorem discAttrs_mem {all chosen : List Attr} {labels : Attr → List String} {fresh : Nat → Nat} {p : FAttr}
    (h : p ∈ discAttrs all chosen labels fresh) : p.old ∈ all ∧ p.new.name = p.old.name ∧
      (p.old ∈ chosen → p.new.body = .cat p.old.name (labels p.old)) ∧ (p.old ∉ chosen → p.new = p.old) := by
  have h0 : p.old ∈ all := by
    rw [← discAttrs_old all chosen labels fresh]
    exact List.mem_map.2 ⟨p, h, rfl⟩
  unfold discAttrs at h
  obtain ⟨q, _, rfl⟩ := List.mem_map.1 h
  refine ⟨h0, ?_, ?_, ?_⟩
  · simp only
    split <;> rfl
  · intro hc; simp only [if_pos hc]
  · intro hc; simp only [if_neg hc]

/-- A discretising filter fits a data set with distinct names, and leaves nothing to pass through. -/
theorem disc_fits {src : Grid} {n : Nat} (chosen : List Attr) (labels : Attr → List String) (fresh : Nat → Nat)
    (tf : Attr → Attr → Bytes → Res Bytes) (hnames : (src.allAttributes.map Attr.name).Nodup)
    (htot : ∀ a ∈ src.allAttributes, ∀ b, ∀ r, r < n → ∃ v, tf a b (src.cell a r) = Res.ok v) :
    FilterFits src ⟨discAttrs src.allAttributes chosen labels fresh, tf⟩ n ∧
    ∀ a, ¬ PassedThrough src ⟨discAttrs src.allAttributes chosen labels fresh, tf⟩ a := by
  have hpass : ∀ a, ¬ PassedThrough src ⟨discAttrs src.allAttributes chosen labels fresh, tf⟩ a := by
    rintro a ⟨h1, h2⟩
    rw [← discAttrs_old src.allAttributes chosen labels fresh] at h1
    obtain ⟨p, hp, e⟩ := List.mem_map.1 h1
    exact h2 p hp e
  have hnn : ((discAttrs src.allAttributes chosen labels fresh).map fun p => p.old.name).Nodup := by
    have : (discAttrs src.allAttributes chosen labels fresh).map (fun p => p.old.name) =
        ((discAttrs src.allAttributes chosen labels fresh).map FAttr.old).map Attr.name := by rw [List.map_map]; rfl
    rw [this, discAttrs_old]
    exact hnames
  refine ⟨⟨fun p hp => (discAttrs_mem hp).1, ?_, ?_, fun p hp a ha => absurd ha (hpass a), ?_⟩, hpass⟩
  · have h := hnn
    rw [List.nodup_iff_pairwise_ne, List.pairwise_map] at h
    refine List.Pairwise.imp_of_mem ?_ h
    intro p q hp hq hne
    cases he : p.new.equals q.new with
    | false => rfl
    | true =>
      have := equals_name he
      rw [(discAttrs_mem hp).2.1, (discAttrs_mem hq).2.1] at this
      exact absurd this hne
  · intro p hp q hq he
    have := equals_name he
    rw [(discAttrs_mem hq).2.1] at this
    exact List.inj_on_of_nodup_map hnn hp hq this
  · intro p hp r hr
    exact htot _ (discAttrs_mem hp).1 _ r hr

end Golearn
