import Verif.Spec.OneVsAll
import Verif.Proofs.Predict
import Verif.Proofs.Filtered
import Verif.Proofs.DenseTable
import Verif.Proofs.ClassAttrs
import Verif.Props.C33

/-! # One-vs-all: lemmas -/

namespace Golearn

theorem ovaHighest_spec (vs : List String) (hnd : vs.Nodup) (hb : vs.length ≤ 2 ^ 64) :
    ∀ k, k ≤ vs.length → ∀ val : U64, val.toNat = vs.length - k - 1 →
      ∃ v, ovaHighest vs (vs.drop (vs.length - k)) val = Res.ok v ∧ v.toNat = vs.length - 1 := by
  intro k
  induction k with
  | zero =>
    intro _ val hval
    refine ⟨val, ?_, by omega⟩
    simp [ovaHighest]
  | succ k ih =>
    intro hk val hval
    have hlt : vs.length - (k + 1) < vs.length := by omega
    rw [List.drop_eq_getElem_cons hlt, show vs.length - (k + 1) + 1 = vs.length - k by omega]
    have hi : catIntern vs vs[vs.length - (k + 1)] = (packU64 (BitVec.ofNat 64 (vs.length - (k + 1))), vs) := by
      unfold catIntern
      rw [findValue_eq, if_pos (List.getElem_mem hlt), List.Nodup.idxOf_getElem hnd]
      simp
    simp only [ovaHighest, hi, C01_unpack_pack, Res.bind_ok]
    have hm : (BitVec.ofNat 64 (vs.length - (k + 1))).toNat = vs.length - (k + 1) := by
      rw [BitVec.toNat_ofNat]; exact Nat.mod_eq_of_lt (by omega)
    apply ih (by omega)
    split
    · rw [hm]; omega
    · rename_i h
      rw [BitVec.lt_def, hm, hval] at h
      omega

/-- All values are known and different: the highest stored one is the last. -/
theorem ovaHighest_eq (vs : List String) (hnd : vs.Nodup) (hb : vs.length ≤ 2 ^ 64) :
    ∃ v, ovaHighest vs vs 0#64 = Res.ok v ∧ v.toNat = vs.length - 1 := by
  cases hv : vs with
  | nil => exact ⟨0#64, rfl, rfl⟩
  | cons w ws =>
    rw [← hv]
    have h0 : vs = w :: ws := hv
    have hi : catIntern vs w = (packU64 (BitVec.ofNat 64 0), vs) := by
      unfold catIntern
      rw [findValue_eq, h0]
      simp
    have hlen : 0 < vs.length := by rw [h0]; simp
    obtain ⟨v, h1, h2⟩ := ovaHighest_spec vs hnd hb (vs.length - 1) (by omega) 0#64 (by
      show (0 : Nat) = _
      omega)
    refine ⟨v, ?_, h2⟩
    rw [show vs.length - (vs.length - 1) = 1 by omega] at h1
    conv_lhs => rw [show ovaHighest vs vs = ovaHighest vs (w :: ws) by rw [← h0]]
    simp only [ovaHighest, hi, C01_unpack_pack, Res.bind_ok]
    rw [← h1, h0]
    rfl

/-- Setting new keys one after the other appends them. -/
theorem foldl_set_nodup {κ ν : Type} [DecidableEq κ] (f : κ → ν) (l : List κ) (m : GoMap κ ν) (hnd : l.Nodup)
    (hdis : ∀ k ∈ l, k ∉ m.map Prod.fst) :
    l.foldl (fun m k => m.set k (f k)) m = m ++ l.map fun k => (k, f k) := by
  induction l generalizing m with
  | nil => simp
  | cons k ks ih =>
    have hset : m.set k (f k) = m ++ [(k, f k)] := by
      have := hdis k List.mem_cons_self
      clear ih hdis
      induction m with
      | nil => rfl
      | cons p rest ihm =>
        obtain ⟨k', v⟩ := p
        simp only [List.map_cons, List.mem_cons, not_or] at this
        rw [GoMap.set, if_neg (fun e => this.1 e.symm), ihm this.2]
        rfl
    rw [List.foldl_cons, hset, ih _ (List.nodup_cons.1 hnd).2]
    · simp
    · intro x hx
      simp only [List.map_append, List.mem_append, List.map_cons, List.map_nil, List.mem_singleton, not_or]
      exact ⟨hdis x (List.mem_cons_of_mem _ hx), fun e => (List.nodup_cons.1 hnd).1 (e ▸ hx)⟩

theorem nodup_of_distinct {g : Grid} (hd : g.distinct) : g.allAttributes.Nodup := by
  refine List.Pairwise.imp ?_ hd
  intro a b h e
  rw [e, C28_equals_refl] at h
  cases h

/-- The attribute that replaces `a`. -/
def ovaNew (fresh : Attr → Nat) (c a : Attr) : Attr := if a = c then ⟨fresh a, .float c.name 2⟩ else a

theorem ovaAttrs_eq (fresh : Attr → Nat) {g : Grid} (hd : g.distinct) {c : Attr} (hc : c ∈ g.allAttributes) :
    ovaAttrs fresh g.allAttributes c = g.allAttributes.map fun a => (a, ovaNew fresh c a) := by
  have := foldl_set_nodup (fun a => if a.equals c = true then (⟨fresh a, .float c.name 2⟩ : Attr) else a) g.allAttributes []
    (nodup_of_distinct hd) (by simp)
  unfold ovaAttrs
  rw [this, List.nil_append]
  refine List.map_congr_left fun a ha => ?_
  unfold ovaNew
  by_cases h : a = c
  · rw [if_pos h, if_pos (by rw [h]; exact C28_equals_refl c)]
  · rw [if_neg h, if_neg (fun he => h (distinct_eq hd ha hc he))]

section
variable {g : Grid} {n : Nat} {c : Attr} {nm : String} {vs : List String} {fresh : Attr → Nat}
  {ord : List FAttr → List FAttr}

theorem mem_ovaFilter (hd : g.distinct) (hc : c ∈ g.allAttributes) (hord : ∀ l, (ord l).Perm l) (val : U64) (p : FAttr) :
    p ∈ ((⟨ovaAttrs fresh g.allAttributes c, c, val⟩ : OvaFilter).filter ord).attrs ↔
      ∃ a ∈ g.allAttributes, p = ⟨a, ovaNew fresh c a⟩ := by
  simp only [OvaFilter.filter, (hord _).mem_iff, ovaAttrs_eq fresh hd hc, List.map_map, List.mem_map, Function.comp]
  constructor
  · rintro ⟨a, h1, rfl⟩; exact ⟨a, h1, rfl⟩
  · rintro ⟨a, h1, rfl⟩; exact ⟨a, h1, rfl⟩

/-- No feature can be confused with the numeric class column. -/
def NoNameClash (g : Grid) (c : Attr) : Prop :=
  ∀ a ∈ g.allAttributes, ∀ pr, a.body ≠ .float c.name pr

theorem ovaNew_equals (hd : g.distinct) (hc : c ∈ g.allAttributes) (hcb : c.body = .cat nm vs) (hno : NoNameClash g c)
    {a b : Attr} (ha : a ∈ g.allAttributes) (hb : b ∈ g.allAttributes) (h : a.equals (ovaNew fresh c b) = true) :
    a = b ∧ b ≠ c := by
  unfold ovaNew at h
  by_cases hbc : b = c
  · rw [if_pos hbc] at h
    unfold Attr.equals at h
    cases hab : a.body with
    | float m pr =>
      rw [hab] at h
      simp only at h
      by_cases hm : m = c.name
      · exact absurd (hm ▸ hab) (hno a ha pr)
      · simp [hm] at h
    | cat m ws => rw [hab] at h; simp at h
    | bin m => rw [hab] at h; simp at h
  · rw [if_neg hbc] at h
    exact ⟨distinct_eq hd ha hb h, hbc⟩

theorem ovaNew_inj (hd : g.distinct) (hc : c ∈ g.allAttributes) (hcb : c.body = .cat nm vs) (hno : NoNameClash g c)
    {a b : Attr} (ha : a ∈ g.allAttributes) (hb : b ∈ g.allAttributes)
    (h : (ovaNew fresh c a).equals (ovaNew fresh c b) = true) : a = b := by
  by_cases hac : a = c
  · by_cases hbc : b = c
    · rw [hac, hbc]
    · have := C28_equals_symm _ _ h
      rw [ovaNew, if_neg hbc] at this
      exact ((ovaNew_equals hd hc hcb hno hb ha this).1).symm
  · rw [ovaNew, if_neg hac] at h
    exact (ovaNew_equals hd hc hcb hno ha hb h).1

theorem ova_fits (P : g.Presents n) (hd : g.distinct) (hc : c ∈ g.allAttributes) (hcb : c.body = .cat nm vs)
    (hcv : ∀ r, r < n → ∃ u, g.cell c r = packU64 u)
    (hno : NoNameClash g c) (hord : ∀ l, (ord l).Perm l) (val : U64) :
    FilterFits g ((⟨ovaAttrs fresh g.allAttributes c, c, val⟩ : OvaFilter).filter ord) n where
  known := by
    intro p hp
    obtain ⟨a, ha, rfl⟩ := (mem_ovaFilter hd hc hord val p).1 hp
    exact ha
  newDistinct := by
    have hsymm : ∀ x y : FAttr, x.new.equals y.new = false → y.new.equals x.new = false := by
      intro x y h
      cases hb : y.new.equals x.new with
      | false => rfl
      | true => rw [C28_equals_symm _ _ hb] at h; cases h
    have hp := hord (((ovaAttrs fresh g.allAttributes c).map fun p => (⟨p.1, p.2⟩ : FAttr)))
    refine (hp.pairwise_iff (fun {x y} => hsymm x y)).2 ?_
    rw [ovaAttrs_eq fresh hd hc, List.map_map, List.pairwise_map]
    refine List.Nodup.pairwise_of_forall_ne (nodup_of_distinct hd) ?_
    intro a ha b hb hne
    cases he : (ovaNew fresh c a).equals (ovaNew fresh c b) with
    | false => exact he
    | true => exact absurd (ovaNew_inj hd hc hcb hno ha hb he) hne
  oldNew := by
    intro p hp q hq h
    obtain ⟨a, ha, rfl⟩ := (mem_ovaFilter hd hc hord val p).1 hp
    obtain ⟨b, hb, rfl⟩ := (mem_ovaFilter hd hc hord val q).1 hq
    rw [(ovaNew_equals hd hc hcb hno ha hb h).1]
  newPassed := by
    intro p hp a h
    exact absurd rfl (h.2 ⟨a, ovaNew fresh c a⟩ ((mem_ovaFilter hd hc hord val _).2 ⟨a, h.1, rfl⟩))
  total := by
    intro p hp r hr
    obtain ⟨a, ha, rfl⟩ := (mem_ovaFilter hd hc hord val p).1 hp
    simp only [OvaFilter.filter]
    split
    · exact ⟨_, rfl⟩
    · rename_i h
      simp only [Bool.not_eq_true', Bool.not_eq_false] at h
      obtain ⟨u, hu⟩ := hcv r hr
      rw [distinct_eq hd ha hc h, hu, C01_unpack_pack]
      exact ⟨_, rfl⟩

theorem packU64_inj {u v : U64} (h : packU64 u = packU64 v) : u = v := by
  have := C01_unpack_pack u
  rw [h, C01_unpack_pack, Res.ok.injEq] at this
  exact this.symm

/-- What a classifier is trained on. -/
theorem ova_marks (P : g.Presents n) (hd : g.distinct) (hcl : g.allClassAttributes = [c]) (hc : c ∈ g.allAttributes)
    (hcb : c.body = .cat nm vs) (hcv : ∀ r, r < n → ∃ u, g.cell c r = packU64 u) (hno : NoNameClash g c)
    (hord : ∀ l, (ord l).Perm l) (i : Nat) :
    MarksClass g (Grid.newFiltered g ((⟨ovaAttrs fresh g.allAttributes c, c, BitVec.ofNat 64 i⟩ : OvaFilter).filter ord))
      n c i := by
  have F := ova_fits (fresh := fresh) P hd hc hcb hcv hno hord (BitVec.ofNat 64 i)
  have hpass : ∀ a, ¬ PassedThrough g ((⟨ovaAttrs fresh g.allAttributes c, c, BitVec.ofNat 64 i⟩ : OvaFilter).filter ord) a := by
    intro a h
    exact absurd rfl (h.2 ⟨a, ovaNew fresh c a⟩ ((mem_ovaFilter hd hc hord _ _).2 ⟨a, h.1, rfl⟩))
  obtain ⟨h1, h2, h3, h4, h5⟩ := C33_get g n P hd _ F
  have hcell : ∀ a ∈ g.allAttributes, ∀ r, r < n → ∃ v,
      ((⟨ovaAttrs fresh g.allAttributes c, c, BitVec.ofNat 64 i⟩ : OvaFilter).filter ord).transform a (ovaNew fresh c a)
        (g.cell a r) = Res.ok v ∧
      (Grid.newFiltered g ((⟨ovaAttrs fresh g.allAttributes c, c, BitVec.ofNat 64 i⟩ : OvaFilter).filter ord)).cell
        (ovaNew fresh c a) r = v := by
    intro a ha r hr
    obtain ⟨s, k1, k2⟩ := h5 ⟨a, ovaNew fresh c a⟩ ((mem_ovaFilter hd hc hord _ _).2 ⟨a, ha, rfl⟩)
    obtain ⟨v, k3, k4⟩ := k2 r hr
    refine ⟨v, k4, ?_⟩
    simp only [Grid.cell, k1, k3]
  refine ⟨(C33_iteration_partial g n P hd _ F (fun a h => absurd h (hpass a))).1, h2, ovaNew fresh c c, ?_, ?_, ?_, ?_, ?_⟩
  · intro x
    rw [C33_class_attributes g n _ hd F (by rw [hcl]; intro x hx; rw [List.mem_singleton.1 hx]; exact hc) ?_ x]
    · constructor
      · rintro (⟨h, _⟩ | ⟨p, hp, hx, rfl⟩)
        · exact absurd h (hpass x)
        · obtain ⟨a, ha, rfl⟩ := (mem_ovaFilter hd hc hord _ p).1 hp
          rw [hcl, List.mem_singleton] at hx
          simp only at hx ⊢
          rw [hx]
      · rintro rfl
        exact Or.inr ⟨⟨c, ovaNew fresh c c⟩, (mem_ovaFilter hd hc hord _ _).2 ⟨c, hc, rfl⟩, by rw [hcl]; simp, rfl⟩
    · intro p hp a ha he
      obtain ⟨b, hb, rfl⟩ := (mem_ovaFilter hd hc hord _ p).1 hp
      exact ((ovaNew_equals hd hc hcb hno ha hb (C28_equals_symm _ _ he)).1).symm
  · simp [ovaNew]
  · intro x
    rw [h1]
    constructor
    · rintro (h | ⟨p, hp, rfl⟩)
      · exact absurd h (hpass x)
      · obtain ⟨a, ha, rfl⟩ := (mem_ovaFilter hd hc hord _ p).1 hp
        by_cases hac : a = c
        · exact Or.inl (by simp only [hac])
        · refine Or.inr ⟨?_, ?_⟩
          · simpa only [ovaNew, if_neg hac] using ha
          · simpa only [ovaNew, if_neg hac] using hac
    · rintro (rfl | ⟨hx, hne⟩)
      · exact Or.inr ⟨⟨c, ovaNew fresh c c⟩, (mem_ovaFilter hd hc hord _ _).2 ⟨c, hc, rfl⟩, rfl⟩
      · exact Or.inr ⟨⟨x, ovaNew fresh c x⟩, (mem_ovaFilter hd hc hord _ _).2 ⟨x, hx, rfl⟩, by simp [ovaNew, hne]⟩
  · intro r hr
    obtain ⟨v, k1, k2⟩ := hcell c hc r hr
    obtain ⟨u, hu⟩ := hcv r hr
    rw [k2, hu]
    simp only [OvaFilter.filter, C28_equals_refl, Bool.not_true, Bool.false_eq_true, if_false, hu, C01_unpack_pack,
      Res.map_ok, Res.ok.injEq] at k1
    rw [← k1]
    congr 1
    by_cases h : u = BitVec.ofNat 64 i
    · rw [if_pos h, if_pos (by rw [h])]
    · rw [if_neg h, if_neg (fun e => h (packU64_inj e))]
  · intro x hx hne r hr
    obtain ⟨v, k1, k2⟩ := hcell x hx r hr
    rw [ovaNew, if_neg hne] at k1 k2
    rw [k2]
    have : x.equals c = false := by
      cases he : x.equals c with
      | false => rfl
      | true => exact absurd (distinct_eq hd hx hc he) hne
    simp only [OvaFilter.filter, this, Bool.not_false, if_true, Res.ok.injEq] at k1
    exact k1.symm
end

/-! ## Choosing -/

section
variable {K : Type} [LinearOrder K] [Zero K] {num : U64 → Option K}

/-- The loop over the classes keeps the best output so far. -/
theorem ovaChoose_spec (r : Nat) (y : Nat → Option K) (outs : List (Grid × Spec)) (j : Nat) (best : Nat × K)
    (hy : ∀ k q, outs[k]? = some q → ∃ u, q.1.get q.2 r = Res.ok (packU64 u) ∧ num u = y (j + k)) :
    ∃ b, ovaChoose num r outs j best = Res.ok b ∧ best.2 ≤ b.2 ∧
      (∀ k, k < outs.length → ∀ x, y (j + k) = some x → x ≤ b.2) ∧
      (b = best ∨ ∃ k, k < outs.length ∧ b.1 = j + k ∧ y (j + k) = some b.2 ∧ best.2 < b.2 ∧
        ∀ i x, i < k → y (j + i) = some x → x < b.2) := by
  induction outs generalizing j best with
  | nil => exact ⟨best, rfl, le_refl _, by simp, Or.inl rfl⟩
  | cons q qs ih =>
    obtain ⟨p, s⟩ := q
    obtain ⟨u, h1, h2⟩ := hy 0 (p, s) rfl
    rw [Nat.add_zero] at h2
    simp only at h1
    obtain ⟨b, i1, i2, i3, i4⟩ := ih (j + 1) (ovaBetter best j (num u)) (by
      intro k q hq
      obtain ⟨u, e1, e2⟩ := hy (k + 1) q (by simpa using hq)
      exact ⟨u, e1, by rw [e2]; congr 1; omega⟩)
    refine ⟨b, ?_, ?_, ?_, ?_⟩
    · simp only [ovaChoose, h1, Res.bind_ok, C01_unpack_pack, i1]
    · refine le_trans ?_ i2
      cases num u with
      | none => exact le_refl _
      | some x =>
        simp only [ovaBetter]
        split
        · rename_i h; exact le_of_lt h
        · exact le_refl _
    · intro k hk x hx
      cases k with
      | zero =>
        rw [Nat.add_zero, ← h2] at hx
        refine le_trans ?_ i2
        rw [hx]
        simp only [ovaBetter]
        split
        · exact le_refl _
        · rename_i h; exact not_lt.1 h
      | succ k =>
        rw [List.length_cons] at hk
        exact i3 k (by omega) x (by rw [← hx]; congr 1; omega)
    · rcases i4 with h | ⟨k, k1, k2, k3, k4, k5⟩
      · cases hn : num u with
        | none => rw [hn] at h; exact Or.inl h
        | some x =>
          rw [hn] at h
          simp only [ovaBetter] at h
          by_cases hlt : best.2 < x
          · rw [if_pos hlt] at h
            refine Or.inr ⟨0, by simp, by rw [h]; rfl, ?_, by rw [h]; exact hlt, by omega⟩
            rw [Nat.add_zero, ← h2, hn, h]
          · rw [if_neg hlt] at h; exact Or.inl h
      · refine Or.inr ⟨k + 1, by simpa using k1, by omega, ?_, ?_, ?_⟩
        · rw [← k3]; congr 1; omega
        · refine lt_of_le_of_lt ?_ k4
          cases num u with
          | none => exact le_refl _
          | some x =>
            simp only [ovaBetter]
            split
            · rename_i h; exact le_of_lt h
            · exact le_refl _
        · intro i x hi hx
          cases i with
          | zero =>
            rw [Nat.add_zero, ← h2] at hx
            rw [hx] at k4
            refine lt_of_le_of_lt ?_ k4
            simp only [ovaBetter]
            split
            · exact le_refl _
            · rename_i h; exact not_lt.1 h
          | succ i => exact k5 i x (by omega) (by rw [← hx]; congr 1; omega)

/-- The loop over the rows stores the choice for each row. -/
theorem ovaRows_spec {n : Nat} {a : Attr} (outs : List (Grid × Spec)) (Q : Nat → Nat → Prop)
    (hch : ∀ r, r < n → ∃ b, ovaChoose num r outs 0 (0, 0) = Res.ok b ∧ Q r b.1)
    (rows : List Nat) (hlt : ∀ r ∈ rows, r < n) (done : List Nat) (hdl : ∀ r ∈ done, r < n) (d : Dense)
    (hv : PredVec d n a)
    (hdone : ∀ r ∈ done, ∃ j, Q r j ∧ d.get ⟨some 0, 0, a⟩ r = Res.ok (packU64 (BitVec.ofNat 64 j))) :
    ∃ d', ovaRows num outs ⟨some 0, 0, a⟩ rows d = Res.ok d' ∧ PredVec d' n a ∧
      ∀ r, r ∈ done ∨ r ∈ rows → ∃ j, Q r j ∧ d'.get ⟨some 0, 0, a⟩ r = Res.ok (packU64 (BitVec.ofNat 64 j)) := by
  induction rows generalizing d done with
  | nil => exact ⟨d, rfl, hv, fun r hr => hdone r (by simpa using hr)⟩
  | cons r rs ih =>
    have hr := hlt r List.mem_cons_self
    obtain ⟨b, b1, b2⟩ := hch r hr
    obtain ⟨d', w1, w2, w3, w4⟩ := hv.write hr (packU64_length (BitVec.ofNat 64 b.1))
    obtain ⟨d2, i1, i2, i3⟩ := ih (fun x hx => hlt x (List.mem_cons_of_mem _ hx)) (r :: done)
      (by
        intro x hx
        rcases List.mem_cons.1 hx with rfl | hx
        · exact hr
        · exact hdl x hx)
      d' w2
      (by
        intro x hx
        by_cases hxr : x = r
        · rw [hxr]; exact ⟨b.1, b2, w3⟩
        · obtain ⟨j, q1, q2⟩ := hdone x ((List.mem_cons.1 hx).resolve_left hxr)
          have hxn : x < n := hdl x ((List.mem_cons.1 hx).resolve_left hxr)
          exact ⟨j, q1, by rw [w4 x hxn hxr]; exact q2⟩)
    refine ⟨d2, ?_, i2, ?_⟩
    · simp only [ovaRows, b1, Res.bind_ok, w1, i1]
    · intro x hx
      apply i3
      rcases hx with hx | hx
      · exact Or.inl (List.mem_cons_of_mem _ hx)
      · rcases List.mem_cons.1 hx with rfl | hx
        · exact Or.inl List.mem_cons_self
        · exact Or.inr hx
end

end Golearn
