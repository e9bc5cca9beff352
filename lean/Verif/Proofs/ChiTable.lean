import Verif.Proofs.ChiMerge
import Verif.Proofs.Instances
import Verif.Props.C16
import Mathlib.Algebra.BigOperators.Group.List.Lemmas

namespace Golearn

variable {K : Type}

/-! ## The statistic -/

theorem foldl_add_map {α : Type} [AddCommMonoid K] (f : α → K) (l : List α) : ∀ s, l.foldl (fun s p => s + f p) s = s + (l.map f).sum := by
  induction l with
  | nil => intro s; simp
  | cons a l ih => intro s; rw [List.foldl_cons, ih, List.map_cons, List.sum_cons, add_assoc]

/-- Sums over the pairs of a map are sums over its keys. -/
theorem sum_keys [AddCommMonoid K] (m : GoMap String Nat) (h : (m.map Prod.fst).Nodup) (F : String → Nat → K) :
    (m.map fun p => F p.1 p.2).sum = ((m.map Prod.fst).map fun c => F c ((m.get? c).getD 0)).sum := by
  rw [List.map_map]
  congr 1
  apply List.map_congr_left
  intro p hp
  have : m.get? p.1 = some p.2 := (GoMap.get?_of_mem m h p.1 p.2).1 hp
  simp [this]

theorem freqTotal_eq (e : FreqEntry K) (he : e.Ok) (cs : List String) (hcs : cs.Nodup)
    (hsub : ∀ c, c ∈ e.freq.map Prod.fst → c ∈ cs) : freqTotal e.freq = (cs.map e.count).sum := by
  have h1 : freqTotal e.freq = ((e.freq.map Prod.fst).map e.count).sum := by
    unfold freqTotal
    rw [foldl_add_map (fun p : String × Nat => p.2), Nat.zero_add, sum_keys e.freq he (fun _ n => n)]
    rfl
  rw [h1]
  have hp : (cs.filter fun c => decide (c ∈ e.freq.map Prod.fst)).Perm (e.freq.map Prod.fst) := by
    rw [List.perm_ext_iff_of_nodup (hcs.filter _) he]
    intro c
    simp only [List.mem_filter, decide_eq_true_eq]
    exact ⟨fun h => h.2, fun h => ⟨hsub c h, h⟩⟩
  rw [← (hp.map e.count).sum_eq]
  clear hp h1 hcs hsub
  induction cs with
  | nil => rfl
  | cons c cs ih =>
    rw [List.filter_cons, List.map_cons, List.sum_cons, ← ih]
    by_cases hc : c ∈ e.freq.map Prod.fst
    · simp [hc]
    · have : e.count c = 0 := by
        unfold FreqEntry.count
        have : e.freq.get? c = none := by
          rw [← Option.not_isSome_iff_eq_none, GoMap.isSome_iff_mem]
          exact hc
        rw [this]; rfl
      simp only [hc, decide_false, Bool.false_eq_true, if_false, this, Nat.zero_add]

theorem chiTerm_eq [Field K] [LinearOrder K] (o c e t : Nat) :
    (chiTerm o c e t : K) = ((o : K) - (c : K) * e / (t : K)) ^ 2 / max ((c : K) * e / (t : K)) (1 / 2) := by
  unfold chiTerm
  simp only
  split
  · rename_i h
    rw [max_eq_right h.le]
  · rename_i h
    rw [max_eq_left (not_lt.1 h)]

/-! ## The frequency table -/

/-- The table for a list of examples. -/
def tableOf [DecidableEq K] (examples : List (K × String)) : List (FreqEntry K) :=
  examples.foldl (fun t x => freqAdd t x.1 x.2) []

/-- What is known of the table after the examples `xs`. -/
structure TableOK [DecidableEq K] (xs : List (K × String)) (t : List (FreqEntry K)) : Prop where
  ok : ∀ e ∈ t, e.Ok
  distinct : (t.map FreqEntry.value).Nodup
  counts : ∀ e ∈ t, ∀ c, e.count c = xs.countP fun x => decide (x.1 = e.value ∧ x.2 = c)
  values : ∀ v, v ∈ t.map FreqEntry.value ↔ v ∈ xs.map Prod.fst
  classes : ∀ e ∈ t, ∀ c, c ∈ e.freq.map Prod.fst ↔ (e.value, c) ∈ xs

theorem incr_count (f : GoMap String Nat) (hf : (f.map Prod.fst).Nodup) (c d : String) :
    ((incr f c).get? d).getD 0 = (f.get? d).getD 0 + (if d = c then 1 else 0) ∧ ((incr f c).map Prod.fst).Nodup := by
  unfold incr
  refine ⟨?_, GoMap.nodup_set _ _ _ hf⟩
  rw [GoMap.get?_set]
  by_cases h : c = d
  · subst h; simp
  · rw [if_neg h, if_neg (Ne.symm h)]; simp

theorem freqAdd_ok [DecidableEq K] {xs : List (K × String)} {t : List (FreqEntry K)} (h : TableOK xs t) (v : K) (c : String) :
    TableOK (xs ++ [(v, c)]) (freqAdd t v c) ∧
    (freqAdd t v c).map FreqEntry.value = if v ∈ xs.map Prod.fst then t.map FreqEntry.value else t.map FreqEntry.value ++ [v] := by
  have hany : t.any (fun e => decide (e.value = v)) = true ↔ v ∈ xs.map Prod.fst := by
    rw [← h.values v, List.any_eq_true]
    simp only [decide_eq_true_eq, List.mem_map]
  unfold freqAdd
  by_cases hv : v ∈ xs.map Prod.fst
  · rw [if_pos (hany.2 hv), if_pos hv]
    have hvals : (t.map fun e => if e.value = v then (⟨e.value, incr e.freq c⟩ : FreqEntry K) else e).map FreqEntry.value =
        t.map FreqEntry.value := by
      rw [List.map_map]
      apply List.map_congr_left
      intro e _
      simp only [Function.comp]
      split <;> rfl
    refine ⟨⟨?_, by rw [hvals]; exact h.distinct, ?_, ?_, ?_⟩, hvals⟩
    · intro e he
      obtain ⟨e0, h0, rfl⟩ := List.mem_map.1 he
      split
      · exact (incr_count e0.freq (h.ok e0 h0) c c).2
      · exact h.ok e0 h0
    · intro e he d
      obtain ⟨e0, h0, rfl⟩ := List.mem_map.1 he
      rw [List.countP_append]
      by_cases hev : e0.value = v
      · rw [if_pos hev]
        show ((incr e0.freq c).get? d).getD 0 = _
        rw [(incr_count e0.freq (h.ok e0 h0) c d).1]
        have := h.counts e0 h0 d
        unfold FreqEntry.count at this
        rw [this]
        congr 1
        subst hev
        by_cases hdc : d = c
        · simp [hdc]
        · simp [hdc, Ne.symm hdc]
      · rw [if_neg hev, h.counts e0 h0 d]
        simp [Ne.symm hev]
    · intro w
      rw [hvals, h.values w, List.map_append, List.mem_append]
      constructor
      · exact Or.inl
      · rintro (hw | hw)
        · exact hw
        · simp only [List.map_cons, List.map_nil, List.mem_singleton] at hw
          rw [hw]; exact hv
    · intro e he d
      obtain ⟨e0, h0, rfl⟩ := List.mem_map.1 he
      rw [List.mem_append]
      by_cases hev : e0.value = v
      · rw [if_pos hev]
        show d ∈ (incr e0.freq c).map Prod.fst ↔ _
        unfold incr
        rw [GoMap.mem_keys_set, h.classes e0 h0 d]
        simp [hev, or_comm]
      · rw [if_neg hev, h.classes e0 h0 d]
        simp [hev]
  · rw [if_neg (fun hh => hv (hany.1 hh)), if_neg hv]
    have hnew : ∀ e ∈ t, e.value ≠ v := fun e he e' => hv ((h.values v).1 (List.mem_map.2 ⟨e, he, e'⟩))
    refine ⟨⟨?_, ?_, ?_, ?_, ?_⟩, by simp⟩
    · intro e he
      rcases List.mem_append.1 he with he | he
      · exact h.ok e he
      · rw [List.mem_singleton] at he; subst he
        simp [FreqEntry.Ok, GoMap.set]
    · rw [List.map_append, List.nodup_append]
      refine ⟨h.distinct, by simp, ?_⟩
      intro w hw u hu e
      simp only [List.map_cons, List.map_nil, List.mem_singleton] at hu
      obtain ⟨e0, h0, rfl⟩ := List.mem_map.1 hw
      exact hnew e0 h0 (e.trans hu)
    · intro e he d
      rw [List.countP_append]
      rcases List.mem_append.1 he with he | he
      · rw [h.counts e he d]
        simp [Ne.symm (hnew e he)]
      · rw [List.mem_singleton] at he; subst he
        have h0 : xs.countP (fun x => decide (x.1 = v ∧ x.2 = d)) = 0 := by
          rw [List.countP_eq_zero]
          intro x hx
          simp only [decide_eq_true_eq, not_and]
          intro e _
          exact hv (List.mem_map.2 ⟨x, hx, e⟩)
        show (GoMap.get? (GoMap.set [] c 1) d).getD 0 = _
        rw [h0, GoMap.get?_set]
        by_cases hcd : c = d
        · simp [hcd]
        · simp [hcd, GoMap.get?]
    · intro w
      rw [List.map_append, List.map_append, List.mem_append, List.mem_append, h.values w]
      simp
    · intro e he d
      rw [List.mem_append]
      rcases List.mem_append.1 he with he | he
      · rw [h.classes e he d]
        simp [hnew e he]
      · rw [List.mem_singleton] at he; subst he
        have : (v, d) ∉ xs := fun hm => hv (List.mem_map.2 ⟨_, hm, rfl⟩)
        simp [GoMap.set, this]

theorem tableOf_spec [DecidableEq K] (xs : List (K × String)) : TableOK xs (tableOf xs) := by
  induction xs using List.reverseRecOn with
  | nil => exact ⟨by simp [tableOf], by simp [tableOf], by simp [tableOf], by simp [tableOf], by simp [tableOf]⟩
  | append_singleton xs x ih =>
    unfold tableOf at ih ⊢
    rw [List.foldl_append]
    exact (freqAdd_ok ih x.1 x.2).1

/-- Ascending examples give ascending values. -/
theorem tableOf_ascending [LinearOrder K] (xs : List (K × String)) (h : xs.Pairwise fun x y => x.1 ≤ y.1) :
    ((tableOf xs).map FreqEntry.value).Pairwise (· < ·) := by
  induction xs using List.reverseRecOn with
  | nil => simp [tableOf]
  | append_singleton xs x ih =>
    rw [List.pairwise_append] at h
    have ih := ih h.1
    have hs := tableOf_spec xs
    unfold tableOf at ih hs ⊢
    rw [List.foldl_append, List.foldl_cons, List.foldl_nil, (freqAdd_ok hs x.1 x.2).2]
    split
    · exact ih
    · rename_i hx
      rw [List.pairwise_append]
      refine ⟨ih, by simp, ?_⟩
      intro v hv w hw
      rw [List.mem_singleton] at hw
      subst hw
      rw [hs.values v] at hv
      obtain ⟨y, hy, rfl⟩ := List.mem_map.1 hv
      refine lt_of_le_of_ne (h.2.2 y hy x (by simp)) ?_
      intro e
      exact hx (List.mem_map.2 ⟨y, hy, e⟩)

theorem pairwise_split [LinearOrder K] {pre post : List (FreqEntry K)} {e : FreqEntry K}
    (h : ((pre ++ e :: post).map FreqEntry.value).Pairwise (· < ·)) :
    (∀ f ∈ pre, f.value < e.value) ∧ (∀ f ∈ post, e.value < f.value) := by
  rw [List.map_append, List.map_cons, List.pairwise_append, List.pairwise_cons] at h
  exact ⟨fun f hf => h.2.2 _ (List.mem_map.2 ⟨f, hf, rfl⟩) _ (by simp), fun f hf => h.2.1.1 _ (List.mem_map.2 ⟨f, hf, rfl⟩)⟩

theorem tableOf_intervals [LinearOrder K] (xs : List (K × String)) (h : xs.Pairwise fun x y => x.1 ≤ y.1) :
    CountsIntervals xs (tableOf xs) := by
  have hasc := tableOf_ascending xs h
  have hs := tableOf_spec xs
  refine ⟨hasc, ?_⟩
  intro pre e post ht c
  have he : e ∈ tableOf xs := by rw [ht]; simp
  rw [hs.counts e he c]
  apply List.countP_congr
  intro x hx
  simp only [decide_eq_true_eq]
  have hval : x.1 ∈ (tableOf xs).map FreqEntry.value := (hs.values _).2 (List.mem_map.2 ⟨x, hx, rfl⟩)
  rw [ht] at hasc hval
  obtain ⟨h1, h2⟩ := pairwise_split hasc
  constructor
  · rintro ⟨e1, e2⟩
    exact ⟨e2, e1.ge, fun f hf => by rw [e1]; exact h2 f hf⟩
  · rintro ⟨e1, e2, e3⟩
    refine ⟨?_, e1⟩
    rw [List.mem_map] at hval
    obtain ⟨f, hf, e⟩ := hval
    rcases List.mem_append.1 hf with hf | hf
    · have := h1 f hf
      rw [e] at this
      exact absurd e2 (not_le.2 this)
    · rcases List.mem_cons.1 hf with rfl | hf
      · exact e.symm
      · have := e3 f hf
        rw [e] at this
        exact absurd this (lt_irrefl _)

/-! ## Merged intervals -/

theorem countP_or_disjoint {α : Type} (p q s : α → Bool) (l : List α) (h : ∀ x, s x = true ↔ p x = true ∨ q x = true)
    (hd : ∀ x, ¬ (p x = true ∧ q x = true)) : l.countP s = l.countP p + l.countP q := by
  induction l with
  | nil => rfl
  | cons a l ih =>
    rw [List.countP_cons, List.countP_cons, List.countP_cons, ih]
    have h1 := h a
    have h2 := hd a
    cases hp : p a <;> cases hq : q a <;> cases hs : s a <;> simp_all <;> omega

theorem block_count [LinearOrder K] {xs : List (K × String)} {t : List (FreqEntry K)} (ht : CountsIntervals xs t) (c : String) :
    ∀ (b : List (FreqEntry K)) (pre : List (FreqEntry K)) (e : FreqEntry K) (post : List (FreqEntry K)), t = pre ++ (e :: b) ++ post →
      ((e :: b).map fun x => x.count c).sum = xs.countP fun x => decide (x.2 = c ∧ e.value ≤ x.1 ∧ ∀ f ∈ post, x.1 < f.value) := by
  intro b
  induction b with
  | nil =>
    intro pre e post h
    rw [List.map_cons, List.map_nil, List.sum_cons, List.sum_nil, Nat.add_zero]
    exact ht.2 pre e post (by simpa using h) c
  | cons y b ih =>
    intro pre e post h
    rw [List.map_cons, List.sum_cons, ih (pre ++ [e]) y post (by simpa using h), ht.2 pre e (y :: b ++ post) (by simpa using h) c]
    symm
    have hasc := ht.1
    have h1 := pairwise_split (pre := pre) (e := e) (post := y :: b ++ post) (by simpa [h] using hasc)
    have h2 := pairwise_split (pre := pre ++ [e]) (e := y) (post := b ++ post) (by simpa [h] using hasc)
    apply countP_or_disjoint
    · intro x
      simp only [decide_eq_true_eq]
      constructor
      · rintro ⟨a1, a2, a3⟩
        by_cases hx : x.1 < y.value
        · refine Or.inl ⟨a1, a2, ?_⟩
          intro f hf
          rw [List.cons_append, List.mem_cons] at hf
          rcases hf with rfl | hf
          · exact hx
          · exact hx.trans (h2.2 f hf)
        · exact Or.inr ⟨a1, not_lt.1 hx, a3⟩
      · rintro (⟨a1, a2, a3⟩ | ⟨a1, a2, a3⟩)
        · exact ⟨a1, a2, fun f hf => a3 f (by simp [hf])⟩
        · exact ⟨a1, (h1.2 y (by simp)).le.trans a2, a3⟩
    · intro x
      simp only [decide_eq_true_eq]
      rintro ⟨⟨_, _, a3⟩, _, b2, _⟩
      exact absurd (a3 y (by simp)) (not_lt.2 b2)

/-- Values of a coarser table are values of the table, and blocks start with them. -/
theorem forall₂_merged_values {bs : List (List (FreqEntry K))} {out : List (FreqEntry K)} (h : List.Forall₂ Merged bs out) :
    (out.map FreqEntry.value).Sublist (bs.flatten.map FreqEntry.value) := by
  induction h with
  | nil => simp
  | cons h1 _ ih =>
    obtain ⟨⟨x, rest, e1, e2⟩, _⟩ := h1
    rw [e1, List.flatten_cons, List.map_cons, e2, List.cons_append, List.map_cons, List.map_append]
    exact (ih.trans (List.sublist_append_right _ _)).cons_cons _

theorem coarser_intervals [LinearOrder K] {xs : List (K × String)} {t out : List (FreqEntry K)} (h : Coarser t out)
    (ht : CountsIntervals xs t) : CountsIntervals xs out := by
  obtain ⟨bs, e, hf⟩ := h
  subst e
  refine ⟨List.Pairwise.sublist (forall₂_merged_values hf) ht.1, ?_⟩
  intro pre f post ho c
  subst ho
  have hl := hf.length_eq
  have h1 := List.forall₂_take_append _ _ _ hf
  have h2 := List.forall₂_drop_append _ _ _ hf
  have hsplit : bs = bs.take pre.length ++ bs.drop pre.length := (List.take_append_drop _ _).symm
  generalize hb1 : bs.take pre.length = bs1 at h1 hsplit
  generalize hb2 : bs.drop pre.length = bs2 at h2 hsplit
  subst hsplit
  cases h2 with
  | @cons b _ bs3 _ m1 m2 =>
    obtain ⟨⟨x, rest, e1, e2⟩, h3, _⟩ := m1
    subst e1
    rw [h3 c, block_count ht c rest bs1.flatten x bs3.flatten (by simp), ← e2]
    apply List.countP_congr
    intro z _
    simp only [decide_eq_true_eq]
    have hsub := forall₂_merged_values m2
    constructor
    · rintro ⟨a1, a2, a3⟩
      refine ⟨a1, a2, ?_⟩
      intro g hg
      obtain ⟨g', hg', e⟩ := List.mem_map.1 (hsub.subset (List.mem_map.2 ⟨g, hg, rfl⟩))
      rw [← e]
      exact a3 g' hg'
    · rintro ⟨a1, a2, a3⟩
      refine ⟨a1, a2, ?_⟩
      intro g hg
      cases m2 with
      | nil => simp at hg
      | @cons b4 p bs4 post4 n1 n2 =>
        obtain ⟨⟨y, r4, g1, g2⟩, _⟩ := n1
        subst g1
        have hz := a3 p (by simp)
        rw [g2] at hz
        rw [List.flatten_cons, List.cons_append, List.mem_cons] at hg
        rcases hg with rfl | hg
        · exact hz
        · have := pairwise_split (pre := bs1.flatten ++ x :: rest) (e := y) (post := r4 ++ bs4.flatten) (by simpa using ht.1)
          exact hz.trans (this.2 g hg)

/-! ## Transform -/

theorem chiIndex_eq [LinearOrder K] (v : K) (ks : List K) : ∀ j dis, chiIndex v ks j dis =
    if (ks.takeWhile fun k => decide (k < v)) = [] then dis else j + (ks.takeWhile fun k => decide (k < v)).length - 1 := by
  induction ks with
  | nil => intro j dis; simp [chiIndex]
  | cons k ks ih =>
    intro j dis
    unfold chiIndex
    by_cases h : k < v
    · rw [if_pos h, ih]
      simp only [List.takeWhile_cons, h, decide_true, if_true]
      by_cases h2 : (ks.takeWhile fun k => decide (k < v)) = []
      · simp [h2]
      · rw [if_neg h2]
        simp
    · rw [if_neg h]
      simp [h]

/-! ## Data sets -/

theorem buildFreq_spec [DecidableEq K] {fo : FloatOps} {val : U64 → K} {g : Grid} {s : Spec} {order : List Nat} {a : Attr}
    {num : Nat → K} {lab : Nat → String} (hs : g.getAttribute a = Res.ok s) (hprep : g.mapPrep [s] = Res.ok ())
    (hrow : ∀ r ∈ order, ∃ b u, g.rowVals [s] r = Res.ok [b] ∧ unpackFloatBits b = Res.ok u ∧ val u = num r)
    (hlab : ∀ r ∈ order, getClass fo g r = Res.ok (lab r)) :
    buildFreq fo val g order a = Res.ok (tableOf (order.map fun r => (num r, lab r))) := by
  unfold buildFreq
  rw [hs]
  simp only [Res.orPanic, Res.bind_ok, Grid.mapOverRows, hprep]
  have hu : ∀ r, ∃ b u, r ∈ order → g.rowVals [s] r = Res.ok [b] ∧ unpackFloatBits b = Res.ok u ∧ val u = num r := by
    intro r
    by_cases hr : r ∈ order
    · obtain ⟨b, u, h⟩ := hrow r hr
      exact ⟨b, u, fun _ => h⟩
    · exact ⟨[], 0, fun h => absurd h hr⟩
  choose b u hu using hu
  rw [mapOver_all (g.rowVals [s]) (fun r => [b r]) _ (fun t _ r => freqAdd t (num r) (lab r)) order
    (fun r hr => (hu r hr).1) (by
      intro t r hr
      simp only [(hu r hr).2.1, Res.bind_ok, hlab r hr, Res.map_ok, (hu r hr).2.2]) []]
  simp only [tableOf, List.foldl_map]

/-- The row map of the sorted view. -/
theorem lazySort_rows {g : Grid} {n : Nat} (P : g.Presents n) (T : g.typed n) {specs : List Spec}
    (hs : ∀ s ∈ specs, ∃ a ∈ g.allAttributes, g.getAttribute a = Res.ok s) {order : List Nat} (ho : g.RowOrder order) :
    ∃ (m : GoMap Nat Nat) (σ : Nat → Nat), lazySort g order false specs = Res.ok (Grid.viewFromRows g m) ∧
      ((List.range n).map σ).Perm (List.range n) ∧ (∀ r, r < n → (m.get? r).getD r = σ r) ∧
      ∀ r q, r < q → q < n →
        let key := rowKeyFlipped g (specs.map Spec.attr)
        lexLt (key (σ r)) (key (σ q)) ∨ (key (σ r) = key (σ q) ∧ σ r < σ q) := by
  have R := resolved_of_lookup P hs
  obtain ⟨m, sws, e1, e2, e3, e4⟩ := lazySort_spec P T R ho false
  obtain ⟨sws', f1, _, f3⟩ := createSortSpec_spec P T R ho
  rw [e1, Res.ok.injEq] at f1
  subst f1
  exact ⟨m, sortRow sws n false, e3, sortRow_perm e2 false, e4, fun r q hrq hq => f3 r q hrq hq⟩

/-- Resolving attributes of the grid gives their specifications. -/
theorem resolveUnsorted_attrs {g : Grid} {n : Nat} (P : g.Presents n) {as : List Attr} (hsub : ∀ a ∈ as, a ∈ g.allAttributes) :
    ∃ specs, g.resolveUnsorted as = Res.ok specs ∧ specs.map Spec.attr = as ∧
      ∀ s ∈ specs, s.attr ∈ g.allAttributes ∧ g.getAttribute s.attr = Res.ok s := by
  obtain ⟨specs, hsp⟩ := P.resolve_total hsub
  refine ⟨specs, hsp, ?_⟩
  unfold Grid.resolveUnsorted at hsp
  rw [mapRes_eq_ok] at hsp
  induction hsp with
  | nil => exact ⟨rfl, by simp⟩
  | @cons a s as ss h1 h2 ih =>
    obtain ⟨i1, i2⟩ := ih fun b hb => hsub b (by simp [hb])
    obtain ⟨t, t1, t2, _⟩ := P.read a (hsub a (by simp))
    rw [t1] at h1
    simp only [Res.ok.injEq] at h1
    subst h1
    refine ⟨by rw [List.map_cons, i1, t2], ?_⟩
    intro s hs
    rcases List.mem_cons.1 hs with rfl | hs
    · rw [t2]; exact ⟨hsub a (by simp), t1⟩
    · exact i2 s hs

end Golearn
