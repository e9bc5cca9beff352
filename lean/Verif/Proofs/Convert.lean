import Verif.Proofs.Filtered
import Verif.Spec.Convert
import Verif.Props.C11
import Verif.Props.C01

/-! # Lemmas about the conversion filters -/

namespace Golearn

open Conv

/-- What the two training loops have in common. -/
structure Trains (mk : String → AttrBody) (fresh : Nat → Nat) (tr : Conv → Nat → List Attr → Conv) : Prop where
  nil : ∀ c k, tr c k [] = c
  cat : ∀ c k a rest name vals, a.body = .cat name vals →
    tr c k (a :: rest) = tr (trainCat mk fresh c k a name vals).1 (trainCat mk fresh c k a name vals).2 rest
  other : ∀ c k a rest, a.isCat = false → ∃ n k',
    tr c k (a :: rest) = tr { c with converted := c.converted ++ [⟨a, n⟩] } k' rest ∧
    n.name = a.name ∧ (n = a ∨ n.body = mk a.name)

theorem trains_binary (fresh : Nat → Nat) : Trains .bin fresh (trainBinary fresh) := by
  refine ⟨fun c k => rfl, ?_, ?_⟩
  · intro c k a rest name vals h
    rw [trainBinary, h]
  · intro c k a rest h
    obtain ⟨p, b⟩ := a
    cases b with
    | cat n v => simp [Attr.isCat] at h
    | float n pr => exact ⟨_, _, rfl, rfl, Or.inr rfl⟩
    | bin n => exact ⟨_, _, rfl, rfl, Or.inl rfl⟩

theorem trains_float (fresh : Nat → Nat) : Trains (fun n => .float n 2) fresh (trainFloat fresh) := by
  refine ⟨fun c k => rfl, ?_, ?_⟩
  · intro c k a rest name vals h
    rw [trainFloat, h]
  · intro c k a rest h
    obtain ⟨p, b⟩ := a
    cases b with
    | cat n v => simp [Attr.isCat] at h
    | float n pr => exact ⟨_, _, rfl, rfl, Or.inl rfl⟩
    | bin n => exact ⟨_, _, rfl, rfl, Or.inr rfl⟩

theorem oneHot_length (mk : String → AttrBody) (fresh : Nat → Nat) (name : String) (k : Nat) (vals : List String) :
    (oneHot mk fresh name k vals).length = vals.length := by
  induction vals generalizing k with
  | nil => rfl
  | cons v vs ih => simp [oneHot, ih]

theorem oneHot_get (mk : String → AttrBody) (fresh : Nat → Nat) (name : String) (k : Nat) (vals : List String) (j : Nat) (v : String)
    (h : vals[j]? = some v) : (oneHot mk fresh name k vals)[j]? = some ⟨fresh (k + j), mk (name ++ "_" ++ v)⟩ := by
  induction vals generalizing k j with
  | nil => simp at h
  | cons w ws ih =>
    cases j with
    | zero => simp at h; simp [oneHot, h]
    | succ j =>
      rw [List.getElem?_cons_succ] at h
      rw [oneHot, List.getElem?_cons_succ, ih (k + 1) j h]
      congr 3
      omega

theorem outputs_append (l m : List FAttr) (a : Attr) : outputs (l ++ m) a = outputs l a ++ outputs m a := by
  simp [outputs]

theorem outputs_one (a n : Attr) : outputs [⟨a, n⟩] a = [n] := by simp [outputs]

theorem outputs_same (a : Attr) (ns : List Attr) : outputs (ns.map fun n => ⟨a, n⟩) a = ns := by
  induction ns with
  | nil => rfl
  | cons n ns ih => unfold outputs at ih ⊢; simpa using ih

theorem outputs_other {a b : Attr} (h : b ≠ a) (ns : List Attr) : outputs (ns.map fun n => ⟨b, n⟩) a = [] := by
  simp [outputs, h]

/-- The columns that are still to come leave what is known about `a` alone. -/
theorem trains_skip {mk : String → AttrBody} {fresh : Nat → Nat} {tr : Conv → Nat → List Attr → Conv}
    (T : Trains mk fresh tr) (a : Attr) (attrs : List Attr) (h : a ∉ attrs) (c : Conv) (k : Nat) :
    outputs (tr c k attrs).converted a = outputs c.converted a ∧ (a ∈ (tr c k attrs).two ↔ a ∈ c.two) ∧
    (tr c k attrs).nval.get? a = c.nval.get? a := by
  induction attrs generalizing c k with
  | nil => rw [T.nil]; exact ⟨rfl, Iff.rfl, rfl⟩
  | cons b rest ih =>
    simp only [List.mem_cons, not_or] at h
    have hb : b ≠ a := fun e => h.1 e.symm
    have hrest := ih h.2
    cases hc : b.isCat with
    | false =>
      obtain ⟨n, k', e, _, _⟩ := T.other c k b rest hc
      rw [e]
      obtain ⟨h1, h2, h3⟩ := hrest { c with converted := c.converted ++ [⟨b, n⟩] } k'
      refine ⟨?_, h2, h3⟩
      rw [h1, outputs_append]
      have := outputs_other hb [n]
      simp only [List.map_cons, List.map_nil] at this
      rw [this, List.append_nil]
    | true =>
      obtain ⟨p, bd⟩ := b
      cases bd with
      | float _ _ => simp [Attr.isCat] at hc
      | bin _ => simp [Attr.isCat] at hc
      | cat name vals =>
        rw [T.cat c k _ rest name vals rfl]
        obtain ⟨h1, h2, h3⟩ := hrest (trainCat mk fresh c k ⟨p, .cat name vals⟩ name vals).1
          (trainCat mk fresh c k ⟨p, .cat name vals⟩ name vals).2
        rw [h1, h2, h3]
        unfold trainCat
        split
        · refine ⟨?_, ?_, rfl⟩
          · simp only
            rw [outputs_append]
            have := outputs_other hb [⟨fresh k, mk name⟩]
            simp only [List.map_cons, List.map_nil] at this
            rw [this, List.append_nil]
          · simp [h.1]
        · refine ⟨?_, Iff.rfl, ?_⟩
          · simp only
            rw [outputs_append, outputs_other hb, List.append_nil]
          · simp only
            rw [GoMap.get?_set, if_neg hb]

/-- What training does for one categorical column. -/
theorem trains_cat {mk : String → AttrBody} {fresh : Nat → Nat} {tr : Conv → Nat → List Attr → Conv}
    (T : Trains mk fresh tr) (a : Attr) (name : String) (vals : List String) (hbody : a.body = .cat name vals)
    (attrs : List Attr) (hnd : attrs.Nodup) (ha : a ∈ attrs) (c : Conv) (k : Nat)
    (h1 : outputs c.converted a = []) (h2 : a ∉ c.two) :
    ∃ j, if vals.length ≤ 2 then outputs (tr c k attrs).converted a = [⟨fresh j, mk name⟩] ∧ a ∈ (tr c k attrs).two
      else outputs (tr c k attrs).converted a = oneHot mk fresh name j vals ∧ a ∉ (tr c k attrs).two ∧
        (tr c k attrs).nval.get? a = some (oneHot mk fresh name j vals) := by
  induction attrs generalizing c k with
  | nil => simp at ha
  | cons b rest ih =>
    rw [List.nodup_cons] at hnd
    by_cases hab : a = b
    · subst hab
      rw [T.cat c k a rest name vals hbody]
      obtain ⟨e1, e2, e3⟩ := trains_skip T a rest hnd.1 (trainCat mk fresh c k a name vals).1
        (trainCat mk fresh c k a name vals).2
      refine ⟨k, ?_⟩
      rw [e1, e2, e3]
      unfold trainCat
      split
      · simp only
        rw [outputs_append, h1, outputs_one]
        simp
      · simp only
        rw [outputs_append, h1, outputs_same, GoMap.get?_set, if_pos rfl]
        exact ⟨rfl, h2, rfl⟩
    · have ha' : a ∈ rest := by simpa [hab] using ha
      have hb : b ≠ a := fun e => hab e.symm
      cases hc : b.isCat with
      | false =>
        obtain ⟨n, k', e, _, _⟩ := T.other c k b rest hc
        rw [e]
        refine ih hnd.2 ha' { c with converted := c.converted ++ [⟨b, n⟩] } k' ?_ h2
        simp only
        rw [outputs_append, h1]
        exact outputs_other hb [n]
      | true =>
        obtain ⟨p, bd⟩ := b
        cases bd with
        | float _ _ => simp [Attr.isCat] at hc
        | bin _ => simp [Attr.isCat] at hc
        | cat name' vals' =>
          rw [T.cat c k _ rest name' vals' rfl]
          apply ih hnd.2 ha'
          · unfold trainCat
            split
            · simp only
              rw [outputs_append, h1]
              exact outputs_other hb [⟨fresh k, mk name'⟩]
            · simp only
              rw [outputs_append, h1, outputs_other hb]
              rfl
          · unfold trainCat
            split
            · simp [h2, hab]
            · exact h2

/-- What training does for one column that is not categorical. -/
theorem trains_plain {mk : String → AttrBody} {fresh : Nat → Nat} {tr : Conv → Nat → List Attr → Conv}
    (T : Trains mk fresh tr) (a : Attr) (hcat : a.isCat = false)
    (attrs : List Attr) (hnd : attrs.Nodup) (ha : a ∈ attrs) (c : Conv) (k : Nat)
    (h1 : outputs c.converted a = []) :
    ∃ n : Attr, outputs (tr c k attrs).converted a = [n] ∧ n.name = a.name ∧ (n = a ∨ n.body = mk a.name) := by
  induction attrs generalizing c k with
  | nil => simp at ha
  | cons b rest ih =>
    rw [List.nodup_cons] at hnd
    by_cases hab : a = b
    · subst hab
      obtain ⟨n, k', e, en, eb⟩ := T.other c k a rest hcat
      rw [e]
      obtain ⟨e1, _, _⟩ := trains_skip T a rest hnd.1 { c with converted := c.converted ++ [⟨a, n⟩] } k'
      refine ⟨n, ?_, en, eb⟩
      rw [e1]
      simp only
      rw [outputs_append, h1, outputs_one]
      rfl
    · have ha' : a ∈ rest := by simpa [hab] using ha
      have hb : b ≠ a := fun e => hab e.symm
      cases hc : b.isCat with
      | false =>
        obtain ⟨n, k', e, _, _⟩ := T.other c k b rest hc
        rw [e]
        apply ih hnd.2 ha'
        simp only
        rw [outputs_append, h1]
        exact outputs_other hb [n]
      | true =>
        obtain ⟨p, bd⟩ := b
        cases bd with
        | float _ _ => simp [Attr.isCat] at hc
        | bin _ => simp [Attr.isCat] at hc
        | cat name' vals' =>
          rw [T.cat c k _ rest name' vals' rfl]
          apply ih hnd.2 ha'
          unfold trainCat
          split
          · simp only
            rw [outputs_append, h1]
            exact outputs_other hb [⟨fresh k, mk name'⟩]
          · simp only
            rw [outputs_append, h1, outputs_other hb]
            rfl

/-- Only columns that were added are converted. -/
theorem trains_old {mk : String → AttrBody} {fresh : Nat → Nat} {tr : Conv → Nat → List Attr → Conv}
    (T : Trains mk fresh tr) (attrs : List Attr) (c : Conv) (k : Nat) (p : FAttr)
    (hp : p ∈ (tr c k attrs).converted) : p ∈ c.converted ∨ p.old ∈ attrs := by
  by_cases h : p.old ∈ attrs
  · exact Or.inr h
  · left
    have e := (trains_skip T p.old attrs h c k).1
    have : p.new ∈ outputs (tr c k attrs).converted p.old := by
      unfold outputs
      exact List.mem_map.2 ⟨p, by simp [hp], rfl⟩
    rw [e] at this
    obtain ⟨q, hq, e2⟩ := List.mem_map.1 this
    rw [List.mem_filter] at hq
    have : q = p := by
      cases q; cases p
      simp_all
    exact this ▸ hq.1

theorem mem_outputs {l : List FAttr} {p : FAttr} (hp : p ∈ l) : p.new ∈ outputs l p.old :=
  List.mem_map.2 ⟨p, by simp [hp], rfl⟩

theorem of_mem_outputs {l : List FAttr} {a n : Attr} (h : n ∈ outputs l a) : (⟨a, n⟩ : FAttr) ∈ l := by
  obtain ⟨q, hq, rfl⟩ := List.mem_map.1 h
  rw [List.mem_filter] at hq
  have : q.old = a := by simpa using hq.2
  subst this
  exact hq.1

theorem underscore_inj {n v w : String} : (n ++ "_" ++ v = n ++ "_" ++ w) ↔ v = w := by
  constructor
  · intro h
    have := congrArg String.toList h
    simp only [String.toList_append] at this
    exact String.toList_injective (List.append_cancel_left this)
  · rintro rfl; rfl

theorem unpack_index {i m : Nat} (h : i < m) (hm : m ≤ 2 ^ 64) :
    unpackU64 (packU64 (BitVec.ofNat 64 i)) = Res.ok (BitVec.ofNat 64 i) ∧ (BitVec.ofNat 64 i).toNat = i := by
  refine ⟨C01_unpack_pack _, ?_⟩
  rw [BitVec.toNat_ofNat]
  exact Nat.mod_eq_of_lt (by omega)

theorem catBit_two {c : Conv} {a : Attr} (n : Attr) (h : a ∈ c.two) {i m : Nat} (hi : i < m) (hm : m ≤ 2 ^ 64) :
    c.catBit a n (stored i) = Res.ok (decide (0 < i)) := by
  unfold catBit stored
  obtain ⟨e1, e2⟩ := unpack_index hi hm
  rw [e1, Res.bind_ok, if_pos h, e2]

theorem catBit_nval {c : Conv} {a n x : Attr} (h : a ∉ c.two) {news : List Attr} (hn : c.nval.get? a = some news)
    {i m : Nat} (hi : i < m) (hm : m ≤ 2 ^ 64) (hx : news[i]? = some x) :
    c.catBit a n (stored i) = Res.ok (x.equals n) := by
  unfold catBit stored
  obtain ⟨e1, e2⟩ := unpack_index hi hm
  rw [e1, Res.bind_ok, if_neg h, hn]
  simp only [e2, hx]

/-- One-hot coding by either filter. -/
theorem oneHot_spec {mk : String → AttrBody} {fresh : Nat → Nat} {tr : Conv → Nat → List Attr → Conv}
    (T : Trains mk fresh tr) (hmk : ∀ (p q : Nat) (s t : String), (⟨p, mk s⟩ : Attr).equals ⟨q, mk t⟩ = decide (s = t))
    (one zero : Bytes) (tf : Conv → Attr → Attr → Bytes → Res Bytes)
    (htf : ∀ c a n raw, a.isCat = true → tf c a n raw = (c.catBit a n raw).map fun b => if b then one else zero)
    (attrs : List Attr) (hnd : attrs.Nodup) (a : Attr) (ha : a ∈ attrs) (name : String) (vals : List String)
    (hbody : a.body = .cat name vals) (hv : vals.Nodup) (hlen : vals.length ≤ 2 ^ 64) :
    if vals.length ≤ 2 then SingleOutput ⟨(tr empty 0 attrs).converted, tf (tr empty 0 attrs)⟩ a (mk name) vals one zero
    else OneHotOutputs ⟨(tr empty 0 attrs).converted, tf (tr empty 0 attrs)⟩ a (fun v => mk (name ++ "_" ++ v)) vals one zero := by
  have hcat : a.isCat = true := by simp [Attr.isCat, hbody]
  obtain ⟨j, hj⟩ := trains_cat T a name vals hbody attrs hnd ha empty 0 rfl (by simp [empty])
  split at hj
  · rename_i h
    rw [if_pos h]
    refine ⟨_, hj.1, rfl, ?_⟩
    intro i hi
    show tf _ a _ _ = _
    rw [htf _ _ _ _ hcat, catBit_two _ hj.2 hi hlen, Res.map_ok]
    by_cases h0 : i = 0
    · subst h0; simp
    · simp [h0, Nat.pos_of_ne_zero h0]
  · rename_i h
    rw [if_neg h]
    refine ⟨_, hj.1, oneHot_length _ _ _ _ _, ?_, ?_⟩
    · intro k v hk
      exact ⟨_, oneHot_get mk fresh name j vals k v hk, rfl⟩
    · intro i hi k n hk
      show tf _ a _ _ = _
      have hik : k < vals.length := by
        have := (List.getElem?_eq_some_iff.1 hk).1
        rwa [oneHot_length] at this
      have e1 := oneHot_get mk fresh name j vals i _ (List.getElem?_eq_getElem hi)
      have e2 := oneHot_get mk fresh name j vals k _ (List.getElem?_eq_getElem hik)
      rw [e2, Option.some.injEq] at hk
      rw [htf _ _ _ _ hcat, catBit_nval hj.2.1 hj.2.2 hi hlen e1, Res.map_ok, ← hk, hmk]
      simp only [underscore_inj, hv.getElem_inj_iff, decide_eq_true_eq]

theorem equals_name {a b : Attr} (h : a.equals b = true) : a.name = b.name := by
  obtain ⟨p, x⟩ := a
  obtain ⟨q, y⟩ := b
  cases x <;> cases y <;> simp_all [Attr.equals, Attr.name]

theorem equals_isCat {a b : Attr} (h : a.equals b = true) : a.isCat = b.isCat := by
  obtain ⟨p, x⟩ := a
  obtain ⟨q, y⟩ := b
  cases x <;> cases y <;> simp_all [Attr.equals, Attr.isCat]

/-- Either filter fits a grid whose columns it was given, if names after filtering are distinct and values are in range. -/
theorem conv_fits {mk : String → AttrBody} {fresh : Nat → Nat} {tr : Conv → Nat → List Attr → Conv}
    (T : Trains mk fresh tr) (hmk : ∀ (p q : Nat) (s t : String), (⟨p, mk s⟩ : Attr).equals ⟨q, mk t⟩ = decide (s = t))
    (hmkc : ∀ (p : Nat) s, (⟨p, mk s⟩ : Attr).isCat = false)
    (one zero : Bytes) (tf : Conv → Attr → Attr → Bytes → Res Bytes)
    (htf : ∀ c a n raw, a.isCat = true → tf c a n raw = (c.catBit a n raw).map fun b => if b then one else zero)
    (htot : ∀ c a n raw, a.isCat = false → wellFormed a raw → ∃ v, tf c a n raw = Res.ok v)
    (src : Grid) (n : Nat) (Ty : src.typed n) (attrs : List Attr) (hnd : attrs.Nodup)
    (hsub : ∀ a ∈ attrs, a ∈ src.allAttributes)
    (hvals : ∀ a ∈ attrs, ∀ name vals, a.body = .cat name vals → vals.Nodup ∧ vals.length ≤ 2 ^ 64 ∧
      ∀ r, r < n → ∃ i, i < vals.length ∧ src.cell a r = stored i)
    (hnames : ((tr empty 0 attrs).converted.map fun p => p.new.name).Nodup)
    (hother : ∀ a ∈ src.allAttributes, a ∉ attrs → ∀ p ∈ (tr empty 0 attrs).converted, p.new.name ≠ a.name) :
    FilterFits src ⟨(tr empty 0 attrs).converted, tf (tr empty 0 attrs)⟩ n := by
  have hold : ∀ p ∈ (tr empty 0 attrs).converted, p.old ∈ attrs := by
    intro p hp
    rcases trains_old T attrs empty 0 p hp with h | h
    · simp [empty] at h
    · exact h
  have hnotcat : ∀ p ∈ (tr empty 0 attrs).converted, p.new.isCat = false := by
    intro p hp
    have hm := mem_outputs hp
    cases hc : p.old.isCat with
    | false =>
      obtain ⟨x, e1, _, e3⟩ := trains_plain T p.old hc attrs hnd (hold p hp) empty 0 rfl
      rw [e1, List.mem_singleton] at hm
      rw [hm]
      rcases e3 with e | e
      · rw [e]; exact hc
      · have : x = ⟨x.ptr, mk p.old.name⟩ := by rw [← e]
        rw [this]
        exact hmkc _ _
    | true =>
      cases hb : p.old.body with
      | float _ _ => simp [Attr.isCat, hb] at hc
      | bin _ => simp [Attr.isCat, hb] at hc
      | cat name vals =>
        obtain ⟨j, hj⟩ := trains_cat T p.old name vals hb attrs hnd (hold p hp) empty 0 rfl (by simp [empty])
        split at hj
        · rw [hj.1, List.mem_singleton] at hm
          rw [hm]
          exact hmkc _ _
        · rw [hj.1] at hm
          obtain ⟨i, hi⟩ := List.mem_iff_getElem?.1 hm
          have hil : i < vals.length := by
            have := (List.getElem?_eq_some_iff.1 hi).1
            rwa [oneHot_length] at this
          rw [oneHot_get mk fresh name j vals i _ (List.getElem?_eq_getElem hil), Option.some.injEq] at hi
          rw [← hi]
          exact hmkc _ _
  have hinj : ∀ p ∈ (tr empty 0 attrs).converted, ∀ q ∈ (tr empty 0 attrs).converted, p.new.name = q.new.name → p = q :=
    fun p hp q hq e => List.inj_on_of_nodup_map hnames hp hq e
  refine ⟨fun p hp => hsub _ (hold p hp), ?_, ?_, ?_, ?_⟩
  · rw [List.nodup_iff_pairwise_ne, List.pairwise_map] at hnames
    refine hnames.imp ?_
    intro p q h
    cases he : p.new.equals q.new with
    | false => rfl
    | true => exact absurd (equals_name he) h
  · intro p hp q hq h
    have hc : p.old.isCat = false := by rw [equals_isCat h]; exact hnotcat q hq
    obtain ⟨x, e1, e2, _⟩ := trains_plain T p.old hc attrs hnd (hold p hp) empty 0 rfl
    have hm := mem_outputs hp
    rw [e1, List.mem_singleton] at hm
    apply hinj p hp q hq
    rw [hm, e2, equals_name h]
  · rintro p hp a ⟨ha, hpass⟩
    have hna : a ∉ attrs := by
      intro hin
      have hne : outputs (tr empty 0 attrs).converted a ≠ [] := by
        cases hc : a.isCat with
        | false =>
          obtain ⟨x, e1, _, _⟩ := trains_plain T a hc attrs hnd hin empty 0 rfl
          rw [e1]
          simp
        | true =>
          cases hb : a.body with
          | float _ _ => simp [Attr.isCat, hb] at hc
          | bin _ => simp [Attr.isCat, hb] at hc
          | cat name vals =>
            obtain ⟨j, hj⟩ := trains_cat T a name vals hb attrs hnd hin empty 0 rfl (by simp [empty])
            split at hj
            · rw [hj.1]; simp
            · rw [hj.1]
              intro e
              have := oneHot_length mk fresh name j vals
              rw [e] at this
              simp at this
              omega
      obtain ⟨x, hx⟩ := List.exists_mem_of_ne_nil _ hne
      exact hpass _ (of_mem_outputs hx) rfl
    cases he : p.new.equals a with
    | false => rfl
    | true => exact absurd (equals_name he) (hother a ha hna p hp)
  · intro p hp r hr
    show ∃ v, tf _ p.old p.new _ = Res.ok v
    cases hc : p.old.isCat with
    | false => exact htot _ _ _ _ hc (Ty _ (hsub _ (hold p hp)) r hr)
    | true =>
      cases hb : p.old.body with
      | float _ _ => simp [Attr.isCat, hb] at hc
      | bin _ => simp [Attr.isCat, hb] at hc
      | cat name vals =>
        obtain ⟨v1, v2, v3⟩ := hvals _ (hold p hp) name vals hb
        obtain ⟨i, hi, ei⟩ := v3 r hr
        rw [ei]
        have hs := oneHot_spec T hmk one zero tf htf attrs hnd p.old (hold p hp) name vals hb v1 v2
        have hm := mem_outputs hp
        split at hs
        · obtain ⟨x, h1, _, h3⟩ := hs
          have h1' : outputs (tr empty 0 attrs).converted p.old = [x] := h1
          rw [h1', List.mem_singleton] at hm
          rw [hm]
          exact ⟨_, h3 i hi⟩
        · obtain ⟨ns, h1, _, _, h4⟩ := hs
          have h1' : outputs (tr empty 0 attrs).converted p.old = ns := h1
          rw [h1'] at hm
          obtain ⟨j, hj⟩ := List.mem_iff_getElem?.1 hm
          exact ⟨_, h4 i hi j _ hj⟩

end Golearn
