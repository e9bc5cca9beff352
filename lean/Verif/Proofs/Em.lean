import Verif.Model.Em
import Verif.Proofs.Regression
import Verif.Proofs.ClusterMap
import Verif.Spec.Em
import Mathlib.Tactic.Ring
import Mathlib.Tactic.Linarith

/-! # Lemmas about expectation maximisation -/

namespace Golearn

variable {K Cov : Type}

theorem emArgmax_inv [LinearOrder K] (x : List K) (all : List (List K → WithBot K)) (fs : List (List K → WithBot K)) :
    ∀ (k : Nat) (best : Nat × WithBot K), all.drop k = fs → k ≤ all.length →
      (∀ j < k, ∀ h, all[j]? = some h → h x ≤ best.2) → (∀ j < best.1, ∀ h, all[j]? = some h → h x < best.2) →
      ((best.1 < k ∧ ∃ h, all[best.1]? = some h ∧ h x = best.2) ∨ best = (0, ⊥)) →
      let r := emArgmax x fs k best
      (∀ j < all.length, ∀ h, all[j]? = some h → h x ≤ r.2) ∧ (∀ j < r.1, ∀ h, all[j]? = some h → h x < r.2) ∧
      ((r.1 < all.length ∧ ∃ h, all[r.1]? = some h ∧ h x = r.2) ∨ r = (0, ⊥)) := by
  induction fs with
  | nil =>
    intro k best hd hk h1 h2 h3
    have hk' : k = all.length := by
      have := congrArg List.length hd
      simp at this
      omega
    subst hk'
    exact ⟨h1, h2, h3⟩
  | cons f fs ih =>
    intro k best hd hk h1 h2 h3
    rw [emArgmax]
    have hfk : all[k]? = some f := by
      have := congrArg (fun l => l[0]?) hd
      simpa using this
    have hlt : k < all.length := by
      rcases List.getElem?_eq_some_iff.mp hfk with ⟨h, _⟩
      exact h
    apply ih (k + 1) _ (by rw [← List.drop_drop, hd]; rfl) (by omega)
    · intro j hj h hh
      rcases Nat.lt_succ_iff_lt_or_eq.mp hj with hj | rfl
      · split
        · exact (h1 j hj h hh).trans (le_of_lt ‹_›)
        · exact h1 j hj h hh
      · rw [hfk, Option.some.injEq] at hh
        subst hh
        split
        · exact le_refl _
        · exact not_lt.mp ‹_›
    · intro j hj h hh
      split at hj
      · rename_i hgt
        rw [if_pos hgt]
        exact lt_of_le_of_lt (h1 j hj h hh) hgt
      · rename_i hgt
        rw [if_neg hgt]
        exact h2 j hj h hh
    · split
      · exact Or.inl ⟨Nat.lt_succ_self k, f, hfk, rfl⟩
      · rcases h3 with ⟨h, h'⟩ | h
        · exact Or.inl ⟨by omega, h'⟩
        · exact Or.inr h

/-- The component that is chosen is the first of those with the greatest value. -/
theorem emArgmax_spec [LinearOrder K] (x : List K) (N : List (List K → WithBot K)) (hN : N ≠ []) :
    ∃ f, N[(emArgmax x N 0 (0, ⊥)).1]? = some f ∧ (∀ (j : Nat) (h : List K → WithBot K), N[j]? = some h → h x ≤ f x) ∧
      ∀ j < (emArgmax x N 0 (0, ⊥)).1, ∀ h, N[j]? = some h → h x < f x := by
  obtain ⟨h1, h2, h3⟩ := emArgmax_inv x N N 0 (0, ⊥) rfl (by omega) (by intro j hj; omega) (by intro j hj; simp at hj) (Or.inr rfl)
  have hpos : 0 < N.length := List.length_pos_iff.mpr hN
  rcases h3 with ⟨_, f, hf, e⟩ | h3
  · refine ⟨f, hf, ?_, ?_⟩
    · intro j h hh
      rw [e]
      exact h1 j (by rcases List.getElem?_eq_some_iff.mp hh with ⟨h, _⟩; exact h) h hh
    · intro j hj h hh
      rw [e]
      exact h2 j hj h hh
  · rw [h3] at h1 ⊢
    have h0 : N[0]? = some N[0] := List.getElem?_eq_getElem hpos
    have hb : ∀ (j : Nat) (h : List K → WithBot K), N[j]? = some h → h x = ⊥ := fun j h hh =>
      le_bot_iff.mp (h1 j (by rcases List.getElem?_eq_some_iff.mp hh with ⟨h, _⟩; exact h) h hh)
    refine ⟨N[0], h0, ?_, ?_⟩
    · intro j h hh
      rw [hb j h hh, hb 0 _ h0]
    · intro j hj
      exact absurd hj (Nat.not_lt_zero j)

theorem estimate_ok [LinearOrder K] {lib : EmLib K Cov} {p : EmParams K Cov} {comps : Nat} {lp : Nat → List K → WithBot K}
    (hn : HasNormals lib p comps lp) (hc : 0 < comps) (X : List (List K)) :
    ∃ y, estimateLogProb lib X p comps = Res.ok y ∧ y.length = X.length ∧
      ∀ (i : Nat) (x : List K), X[i]? = some x → ∃ k, y[i]? = some k ∧ FirstBest comps (fun k => lp k x) k := by
  unfold estimateLogProb
  rw [mapRes_of_ok _ (fun k => lp k) (List.range comps) (by
    intro k hk
    obtain ⟨m, c, h1, h2, h3⟩ := hn k (List.mem_range.mp hk)
    rw [h1, h2]
    simp only
    rw [h3])]
  refine ⟨_, rfl, by simp, ?_⟩
  intro i x hx
  refine ⟨_, by rw [List.getElem?_map, hx]; rfl, ?_⟩
  obtain ⟨f, h1, h2, h3⟩ := emArgmax_spec x ((List.range comps).map fun k => lp k) (by
    intro h
    have := congrArg List.length h
    simp at this
    omega)
  have hget : ∀ (j : Nat) (h : List K → WithBot K), ((List.range comps).map fun k => lp k)[j]? = some h → j < comps ∧ h = lp j := by
    intro j h hh
    rcases List.getElem?_eq_some_iff.mp hh with ⟨hj, e⟩
    simp at hj e
    exact ⟨hj, e.symm⟩
  obtain ⟨hr, rfl⟩ := hget _ _ h1
  refine ⟨hr, ?_, ?_⟩
  · intro j hj
    exact h2 j (lp j) (by simp [hj])
  · intro j hj
    have hj' : j < (emArgmax x ((List.range comps).map fun k => lp k) 0 (0, ⊥)).1 := hj
    exact h3 j hj' (lp j) (by rw [List.getElem?_map, List.getElem?_range (by omega)]; rfl)

theorem group_fold (l : List (Nat × Nat)) : ∀ m : GoMap Nat (List Nat), (m.map Prod.fst).Nodup →
    let r := l.foldl (fun m p => m.set p.1 ((m.get? p.1).getD [] ++ [p.2])) m
    (r.map Prod.fst).Nodup ∧ (∀ k, (r.get? k).getD [] = (m.get? k).getD [] ++ (l.filter fun p => decide (p.1 = k)).map Prod.snd) ∧
    ∀ k, k ∈ r.map Prod.fst ↔ k ∈ m.map Prod.fst ∨ k ∈ l.map Prod.fst := by
  induction l with
  | nil => intro m hm; exact ⟨hm, by simp, by simp⟩
  | cons p l ih =>
    intro m hm
    rw [List.foldl_cons]
    obtain ⟨h1, h2, h3⟩ := ih (m.set p.1 ((m.get? p.1).getD [] ++ [p.2])) (GoMap.nodup_set m _ _ hm)
    refine ⟨h1, ?_, ?_⟩
    · intro k
      rw [h2, GoMap.get?_set]
      by_cases hk : p.1 = k
      · rw [if_pos hk, List.filter_cons_of_pos (by simpa using hk)]
        subst hk
        simp
      · rw [if_neg hk, List.filter_cons_of_neg (by simpa using hk)]
    · intro k
      rw [h3, GoMap.mem_keys_set, List.map_cons, List.mem_cons]
      tauto

theorem emMatrix_ok [Zero K] {g : Grid} {n : Nat} (P : g.Presents n) (T : g.typed n) {attrs : List Attr} (hf : g.Finds attrs)
    (hfl : ∀ a ∈ attrs, a.isFloat = true) (hne : attrs ≠ []) (hn : 0 < n) {srt : List Spec → List Spec} {fs : List Attr}
    (hfs : fs.Perm attrs) (hsp : ∀ sp : Attr → Spec, srt (attrs.map sp) = fs.map sp) {order : List Nat} (ho : g.RowOrder order)
    (val : U64 → K) :
    (∃ specs, g.resolve srt attrs = Res.ok specs) ∧ emMatrix val srt order g attrs = Res.ok ((List.range n).map (g.point val fs)) := by
  obtain ⟨sp, x1, x2⟩ := features_spec P T hf hfl
  obtain ⟨x3, x4⟩ := x2 fs (fun a ha => hfs.subset ha)
  have o1 := P.order _ ho
  have hm := mapOver_all (g.rowVals (fs.map sp)) (fun r => fs.map fun a => g.cell a r) (emRowCallback val)
    (fun m _ r => setRow m r (g.point val fs r)) order (fun r hr => (x4 r (List.mem_range.1 (o1.subset hr))).1)
    (by
      intro m r hr
      unfold emRowCallback
      rw [(x4 r (List.mem_range.1 (o1.subset hr))).2 val, Res.map_ok]) (fun _ => List.replicate attrs.length 0)
  have hres : g.resolve srt attrs = Res.ok (fs.map sp) := by
    unfold Grid.resolve
    rw [x1, Res.map_ok, hsp]
  refine ⟨⟨_, hres⟩, ?_⟩
  unfold emMatrix
  rw [hres, Res.bind_ok, P.rows, if_neg (by rintro (h | h); omega; exact hne h)]
  unfold Grid.mapOverRows
  rw [x3, Res.bind_ok, hm]
  simp only [keepState, Res.map_ok]
  congr 1
  apply List.map_congr_left
  intro r hr
  rw [setRow_foldl (fun r => g.point val fs r), if_pos (o1.symm.subset hr)]

/-! ## Fitting -/

theorem foldl_sum_getD [Field K] (X : List (List K)) (j : Nat) : X.foldl (fun s x => s + x.getD j 0) 0 = (X.map fun x => x.getD j 0).sum := by
  have : ∀ s : K, X.foldl (fun s x => s + x.getD j 0) s = s + (X.map fun x => x.getD j 0).sum := by
    induction X with
    | nil => intro s; simp
    | cons x X ih => intro s; rw [List.foldl_cons, ih, List.map_cons, List.sum_cons, add_assoc]
  rw [this, zero_add]

theorem vectorMin_spec [LinearOrder K] (v : List K) (s : K) :
    vectorMin v s ≤ s ∧ (∀ x ∈ v, vectorMin v s ≤ x) ∧ (vectorMin v s = s ∨ vectorMin v s ∈ v) := by
  unfold vectorMin
  induction v generalizing s with
  | nil => simp
  | cons a v ih =>
    rw [List.foldl_cons]
    obtain ⟨h1, h2, h3⟩ := ih (if a < s then a else s)
    have hle : (if a < s then a else s) ≤ a ∧ (if a < s then a else s) ≤ s := by
      split
      · exact ⟨le_refl _, le_of_lt ‹_›⟩
      · exact ⟨not_lt.mp ‹_›, le_refl _⟩
    refine ⟨h1.trans hle.2, ?_, ?_⟩
    · intro x hx
      rcases List.mem_cons.mp hx with rfl | hx
      · exact h1.trans hle.1
      · exact h2 x hx
    · rcases h3 with h3 | h3
      · rw [h3]
        split
        · exact Or.inr (List.mem_cons_self ..)
        · exact Or.inl rfl
      · exact Or.inr (List.mem_cons_of_mem _ h3)

theorem vectorMax_spec [LinearOrder K] (v : List K) (s : K) :
    s ≤ vectorMax v s ∧ (∀ x ∈ v, x ≤ vectorMax v s) ∧ (vectorMax v s = s ∨ vectorMax v s ∈ v) := by
  unfold vectorMax
  induction v generalizing s with
  | nil => simp
  | cons a v ih =>
    rw [List.foldl_cons]
    obtain ⟨h1, h2, h3⟩ := ih (if a > s then a else s)
    have hle : a ≤ (if a > s then a else s) ∧ s ≤ (if a > s then a else s) := by
      split
      · exact ⟨le_refl _, le_of_lt ‹_›⟩
      · exact ⟨not_lt.mp ‹_›, le_refl _⟩
    refine ⟨hle.2.trans h1, ?_, ?_⟩
    · intro x hx
      rcases List.mem_cons.mp hx with rfl | hx
      · exact hle.1.trans h1
      · exact h2 x hx
    · rcases h3 with h3 | h3
      · rw [h3]
        split
        · exact Or.inr (List.mem_cons_self ..)
        · exact Or.inl rfl
      · exact Or.inr (List.mem_cons_of_mem _ h3)

/-! ## The whole of `Fit` -/

/-- Parameters for `comps` components and `feats` attributes. -/
def EmSized (feats comps : Nat) (p : EmParams K Cov) : Prop :=
  p.means.length = comps ∧ p.covs.length = comps ∧ ∀ m ∈ p.means, m.length = feats

theorem FirstBest.unique {V : Type} [LinearOrder V] {n : Nat} {v : Nat → V} {k k' : Nat} (h : FirstBest n v k) (h' : FirstBest n v k') : k = k' := by
  rcases Nat.lt_trichotomy k k' with hlt | e | hlt
  · exact absurd (h.2.1 k' h'.1) (not_le.mpr (h'.2.2 k hlt))
  · exact e
  · exact absurd (h'.2.1 k h.1) (not_le.mpr (h.2.2 k' hlt))

theorem HasNormals.unique {lib : EmLib K Cov} {p : EmParams K Cov} {comps : Nat} {lp lp' : Nat → List K → WithBot K}
    (h : HasNormals lib p comps lp) (h' : HasNormals lib p comps lp') : ∀ k < comps, lp k = lp' k := by
  intro k hk
  obtain ⟨m, c, h1, h2, h3⟩ := h k hk
  obtain ⟨m', c', h1', h2', h3'⟩ := h' k hk
  rw [h1, Option.some.injEq] at h1'
  rw [h2, Option.some.injEq] at h2'
  subst h1'; subst h2'
  rw [h3, Option.some.injEq] at h3'
  exact h3'

theorem assigned_eq_rowsOf [LinearOrder K] {comps : Nat} {lp : Nat → List K → WithBot K} (k : Nat) : ∀ (X : List (List K)) (y : List Nat),
    y.length = X.length → (∀ (i : Nat) (x : List K), X[i]? = some x → ∃ k, y[i]? = some k ∧ FirstBest comps (fun k => lp k x) k) →
    assigned X y k = emRowsOf comps lp X k := by
  intro X
  induction X with
  | nil => intro y _ _; simp [assigned, emRowsOf]
  | cons x X ih =>
    intro y hl h
    match y, hl with
    | b :: y, hl =>
      have hr := ih y (by simpa using hl) (fun i z hz => by simpa using h (i + 1) z (by simpa using hz))
      obtain ⟨k', e, hb⟩ := h 0 x rfl
      have e : b = k' := by simpa using e
      subst e
      unfold assigned emRowsOf at hr ⊢
      rw [List.zip_cons_cons]
      by_cases hbk : b = k
      · subst hbk
        rw [List.filter_cons_of_pos (by simp), List.filter_cons_of_pos (by simpa using hb), List.map_cons, hr]
      · rw [List.filter_cons_of_neg (by simpa using hbk), List.filter_cons_of_neg (by
          simp only [decide_eq_true_eq]; exact fun h' => hbk (hb.unique h')), hr]

theorem emComponent_spec [Field K] (lib : EmLib K Cov) (feats : Nat) (X : List (List K)) (y : List Nat) (p : EmParams K Cov) (comps k : Nat)
    (hm : p.means.length = comps) (hc : p.covs.length = comps) (hk : k < comps) :
    (assigned X y k = [] → emComponent lib feats X y p k = Res.panic) ∧
      (assigned X y k ≠ [] → ∃ m, emComponent lib feats X y p k = Res.ok m ∧
        (1 < (assigned X y k).length → m.1 = (List.range feats).map (columnMean (assigned X y k)) ∧
          m.2 = if (assigned X y k).length < feats then columnVariances lib feats (assigned X y k) else lib.covariance (assigned X y k)) ∧
        ((assigned X y k).length = 1 → some m.1 = p.means[k]? ∧ some m.2 = p.covs[k]?)) := by
  have hmk : p.means[k]? = some p.means[k] := List.getElem?_eq_getElem (by omega)
  have hck : p.covs[k]? = some p.covs[k] := List.getElem?_eq_getElem (by omega)
  unfold emComponent emWhere
  constructor
  · intro h
    unfold assigned at h
    simp only [h, if_true]
    rfl
  · intro h
    unfold assigned at h
    simp only [h, if_false, Res.bind_ok]
    have hmean : ∀ Z : List (List K), emMeans feats Z = (List.range feats).map (columnMean Z) := by
      intro Z
      unfold emMeans
      apply List.map_congr_left
      intro j _
      rw [foldl_sum_getD]
      rfl
    split
    · rename_i hle
      rw [hmk, hck]
      exact ⟨_, rfl, fun h' => absurd hle (by unfold assigned at h'; omega), fun _ => ⟨rfl, rfl⟩⟩
    · rename_i hle
      split
      · rename_i hlt
        refine ⟨_, rfl, fun _ => ⟨hmean _, ?_⟩, fun h' => absurd hle (by unfold assigned at h'; omega)⟩
        rw [if_pos (by exact hlt)]; rfl
      · rename_i hlt
        refine ⟨_, rfl, fun _ => ⟨hmean _, ?_⟩, fun h' => absurd hle (by unfold assigned at h'; omega)⟩
        rw [if_neg (by exact hlt)]; rfl

theorem maximization_spec [Field K] (lib : EmLib K Cov) (feats : Nat) (X : List (List K)) (y : List Nat) (p : EmParams K Cov) (comps : Nat)
    (hm : p.means.length = comps) (hc : p.covs.length = comps) :
    ((∃ k < comps, assigned X y k = []) → maximization lib feats X y p comps = Res.panic) ∧
    ((∀ k < comps, assigned X y k ≠ []) → ∃ q, maximization lib feats X y p comps = Res.ok q ∧ q.means.length = comps ∧
      q.covs.length = comps ∧ ∀ k < comps,
        (1 < (assigned X y k).length → q.means[k]? = some ((List.range feats).map (columnMean (assigned X y k))) ∧
          q.covs[k]? = some (if (assigned X y k).length < feats then columnVariances lib feats (assigned X y k)
            else lib.covariance (assigned X y k))) ∧
        ((assigned X y k).length = 1 → q.means[k]? = p.means[k]? ∧ q.covs[k]? = p.covs[k]?)) := by
  have hcomp := fun k (hk : k < comps) => emComponent_spec lib feats X y p comps k hm hc hk
  constructor
  · rintro ⟨k, hk, h⟩
    unfold maximization
    have : ∀ l : List Nat, (∀ j ∈ l, j < comps) → k ∈ l → mapRes (emComponent lib feats X y p) l = Res.panic := by
      intro l
      induction l with
      | nil => intro _ h; cases h
      | cons a l ih =>
        intro hl hkl
        rw [mapRes]
        by_cases ha : assigned X y a = []
        · rw [(hcomp a (hl a (List.mem_cons_self ..))).1 ha]; rfl
        · obtain ⟨m, e, _⟩ := (hcomp a (hl a (List.mem_cons_self ..))).2 ha
          rw [e, Res.bind_ok]
          rcases List.mem_cons.mp hkl with rfl | hkl
          · exact absurd h ha
          · rw [ih (fun j hj => hl j (List.mem_cons_of_mem _ hj)) hkl]; rfl
    rw [this (List.range comps) (fun j hj => List.mem_range.mp hj) (List.mem_range.mpr hk)]
    rfl
  · intro hall
    haveI : Nonempty (List K × Cov) := ⟨([], lib.diagonal [])⟩
    choose! m hmk using fun k (hk : k < comps) => (hcomp k hk).2 (hall k hk)
    refine ⟨_, by
      unfold maximization
      rw [mapRes_of_ok _ m (List.range comps) (fun k hk => (hmk k (List.mem_range.mp hk)).1), Res.map_ok], by simp, by simp, ?_⟩
    intro k hk
    obtain ⟨_, h1, h2⟩ := hmk k hk
    have e1 : (((List.range comps).map m).map Prod.fst)[k]? = some (m k).1 := by
      rw [List.getElem?_map, List.getElem?_map, List.getElem?_range hk]; rfl
    have e2 : (((List.range comps).map m).map Prod.snd)[k]? = some (m k).2 := by
      rw [List.getElem?_map, List.getElem?_map, List.getElem?_range hk]; rfl
    refine ⟨fun h => ⟨by rw [e1, (h1 h).1], by rw [e2, (h1 h).2]⟩, fun h => ⟨?_, ?_⟩⟩
    · rw [e1]; exact (h2 h).1
    · rw [e2]; exact (h2 h).2

theorem mapRes_some_panic {α β : Type} (f : α → Res β) (l : List α) (hf : ∀ a ∈ l, f a = Res.panic ∨ ∃ b, f a = Res.ok b)
    (h : ∃ a ∈ l, f a = Res.panic) : mapRes f l = Res.panic := by
  induction l with
  | nil => obtain ⟨a, ha, _⟩ := h; cases ha
  | cons a l ih =>
    rw [mapRes]
    rcases hf a (List.mem_cons_self ..) with e | ⟨b, e⟩
    · rw [e]; rfl
    · rw [e, Res.bind_ok, ih (fun a ha => hf a (List.mem_cons_of_mem _ ha))]
      · rfl
      · obtain ⟨k, hk, hp⟩ := h
        rcases List.mem_cons.mp hk with rfl | hk
        · rw [e] at hp; cases hp
        · exact ⟨k, hk, hp⟩

theorem estimate_cases [LinearOrder K] (lib : EmLib K Cov) (p : EmParams K Cov) (comps : Nat) (X : List (List K)) :
    (∃ lp, HasNormals lib p comps lp) ∨ ((¬ ∃ lp, HasNormals lib p comps lp) ∧ estimateLogProb lib X p comps = Res.panic) := by
  by_cases h : ∀ k < comps, ∃ f m c, p.means[k]? = some m ∧ p.covs[k]? = some c ∧ lib.normal m c = some f
  · left
    haveI : Nonempty (List K → WithBot K) := ⟨fun _ => ⊥⟩
    choose! f hf using h
    exact ⟨f, fun k hk => hf k hk⟩
  · right
    refine ⟨fun ⟨lp, hlp⟩ => h fun k hk => ⟨_, hlp k hk⟩, ?_⟩
    unfold estimateLogProb
    rw [mapRes_some_panic]
    · rfl
    · intro a _
      cases hma : p.means[a]? with
      | none => left; simp only
      | some m =>
        cases hca : p.covs[a]? with
        | none => left; simp only
        | some c =>
          cases hn : lib.normal m c with
          | none => left; simp only [hn]
          | some f => right; exact ⟨f, by simp only [hn]⟩
    · by_contra hcon
      apply h
      intro k hk
      have hk' : ¬ _ := fun h => hcon ⟨k, List.mem_range.mpr hk, h⟩
      revert hk'
      cases hma : p.means[k]? with
      | none => intro h'; exact absurd rfl h'
      | some m =>
        cases hca : p.covs[k]? with
        | none => intro h'; exact absurd rfl h'
        | some c =>
          cases hn : lib.normal m c with
          | none => intro h'; exact absurd (by simp only [hn]) h'
          | some f => intro _; exact ⟨f, m, c, rfl, rfl, hn⟩

/-- A turn of the loop is a turn, or a panic if there is none. -/
theorem emStep_spec [Field K] [LinearOrder K] (lib : EmLib K Cov) (feats comps : Nat) (X : List (List K)) (p : EmParams K Cov)
    (hc : 0 < comps) (hp : EmSized feats comps p) :
    (∃ q, ((estimateLogProb lib X p comps).bind fun y => maximization lib feats X y p comps) = Res.ok q ∧ EmSized feats comps q ∧
      ∀ r, EmTurn lib feats comps X p r ↔ r = q) ∨
    (((estimateLogProb lib X p comps).bind fun y => maximization lib feats X y p comps) = Res.panic ∧ ¬ ∃ r, EmTurn lib feats comps X p r) := by
  rcases estimate_cases lib p comps X with ⟨lp, hlp⟩ | ⟨hno, e⟩
  · obtain ⟨y, hy, hlen, hb⟩ := estimate_ok hlp hc X
    have has := fun k => assigned_eq_rowsOf (comps := comps) (lp := lp) k X y hlen hb
    have hrows : ∀ lp', HasNormals lib p comps lp' → ∀ k, emRowsOf comps lp' X k = emRowsOf comps lp X k := by
      intro lp' hlp' k
      unfold emRowsOf
      apply List.filter_congr
      intro x _
      have e : ∀ j < comps, lp' j x = lp j x := fun j hj => by rw [hlp'.unique hlp j hj]
      have : FirstBest comps (fun j => lp' j x) k ↔ FirstBest comps (fun j => lp j x) k := by
        unfold FirstBest
        constructor
        · rintro ⟨h1, h2, h3⟩
          exact ⟨h1, fun j hj => by show lp j x ≤ lp k x; rw [← e j hj, ← e k h1]; exact h2 j hj,
            fun j hj => by show lp j x < lp k x; rw [← e j (by omega), ← e k h1]; exact h3 j hj⟩
        · rintro ⟨h1, h2, h3⟩
          exact ⟨h1, fun j hj => by show lp' j x ≤ lp' k x; rw [e j hj, e k h1]; exact h2 j hj,
            fun j hj => by show lp' j x < lp' k x; rw [e j (by omega), e k h1]; exact h3 j hj⟩
      rw [decide_eq_decide]
      exact this
    obtain ⟨m1, m2⟩ := maximization_spec lib feats X y p comps hp.1 hp.2.1
    by_cases hemp : ∃ k < comps, assigned X y k = []
    · right
      refine ⟨by rw [hy, Res.bind_ok, m1 hemp], ?_⟩
      rintro ⟨r, lp', h1, h2, h3, h4⟩
      obtain ⟨k, hk, he⟩ := hemp
      have := (h4 k hk).1
      rw [hrows lp' h1, ← has, he] at this
      exact absurd this (by simp)
    · left
      obtain ⟨q, q1, q2, q3, q4⟩ := m2 (fun k hk h => hemp ⟨k, hk, h⟩)
      have hpos : ∀ k < comps, 0 < (emRowsOf comps lp X k).length := by
        intro k hk
        rw [← has]
        exact List.length_pos_iff.mpr fun h => hemp ⟨k, hk, h⟩
      refine ⟨q, by rw [hy, Res.bind_ok, q1], ⟨q2, q3, ?_⟩, ?_⟩
      · intro m hmm
        obtain ⟨k, hk⟩ := List.getElem?_of_mem hmm
        have hkc : k < comps := by
          rcases List.getElem?_eq_some_iff.mp hk with ⟨h, _⟩
          omega
        obtain ⟨a, b⟩ := q4 k hkc
        by_cases h1 : 1 < (assigned X y k).length
        · rw [(a h1).1, Option.some.injEq] at hk
          rw [← hk]; simp
        · have := hpos k hkc
          rw [← has] at this
          rw [(b (by omega)).1] at hk
          exact hp.2.2 m (List.mem_of_getElem? hk)
      · intro r
        constructor
        · rintro ⟨lp', h1, h2, h3, h4⟩
          have hr : ∀ k : Nat, r.means[k]? = q.means[k]? ∧ r.covs[k]? = q.covs[k]? := by
            intro k
            by_cases hk : k < comps
            · obtain ⟨c1, c2, c3⟩ := h4 k hk
              rw [hrows lp' h1] at c1 c2 c3
              obtain ⟨a, b⟩ := q4 k hk
              rw [has] at a b
              by_cases h1 : 1 < (emRowsOf comps lp X k).length
              · exact ⟨(c3 h1).1.trans (a h1).1.symm, (c3 h1).2.trans (a h1).2.symm⟩
              · exact ⟨(c2 (by omega)).1.trans (b (by omega)).1.symm, (c2 (by omega)).2.trans (b (by omega)).2.symm⟩
            · rw [List.getElem?_eq_none (by omega), List.getElem?_eq_none (by omega), List.getElem?_eq_none (by omega),
                List.getElem?_eq_none (by omega)]
              exact ⟨rfl, rfl⟩
          have e1 : r.means = q.means := List.ext_getElem? fun k => (hr k).1
          have e2 : r.covs = q.covs := List.ext_getElem? fun k => (hr k).2
          cases r; cases q
          simp only at e1 e2
          rw [e1, e2]
        · rintro rfl
          refine ⟨lp, hlp, q2, q3, ?_⟩
          intro k hk
          obtain ⟨a, b⟩ := q4 k hk
          rw [has] at a b
          exact ⟨hpos k hk, b, a⟩
  · right
    refine ⟨by rw [e]; rfl, ?_⟩
    rintro ⟨r, lp, h, _⟩
    exact hno ⟨lp, h⟩

theorem foldl_squares [Field K] (a b : List K) : ∀ (n : Nat), a.length = n → b.length = n → ∀ d : K,
    (a.zip b).foldl (fun d x => d + (x.1 - x.2) * (x.1 - x.2)) d = d + ((List.range n).map fun j => (a.getD j 0 - b.getD j 0) ^ 2).sum := by
  induction a generalizing b with
  | nil => intro n ha _ d; simp at ha; subst ha; simp
  | cons x a ih =>
    intro n ha hb d
    match b, n, ha, hb with
    | [], n + 1, _, hb => simp at hb
    | z :: b, n + 1, ha, hb =>
      rw [List.zip_cons_cons, List.foldl_cons, ih b n (by simpa using ha) (by simpa using hb), List.range_succ_eq_map, List.map_cons,
        List.sum_cons, List.map_map, ← add_assoc]
      congr 1
      simp only [List.getD_cons_zero]
      ring

theorem emDistance_eq [Field K] (lib : EmLib K Cov) (feats comps : Nat) (p q : EmParams K Cov) (hp : EmSized feats comps p)
    (hq : EmSized feats comps q) : emDistance lib p q = emMoved lib feats comps p q := by
  unfold emDistance emMoved
  congr 1
  obtain ⟨hp1, _, hp3⟩ := hp
  obtain ⟨hq1, _, hq3⟩ := hq
  have : ∀ (a b : List (List K)) (n : Nat), a.length = n → b.length = n → (∀ m ∈ a, m.length = feats) → (∀ m ∈ b, m.length = feats) → ∀ d : K,
      (a.zip b).foldl (fun d m => (m.1.zip m.2).foldl (fun d x => d + (x.1 - x.2) * (x.1 - x.2)) d) d =
        d + ((List.range n).map fun k => ((List.range feats).map fun j => (((a[k]?.getD []).getD j 0) - ((b[k]?.getD []).getD j 0)) ^ 2).sum).sum := by
    intro a
    induction a with
    | nil => intro b n ha _ _ _ d; simp at ha; subst ha; simp
    | cons x a ih =>
      intro b n ha hb fa fb d
      match b, n, ha, hb with
      | [], n + 1, _, hb => simp at hb
      | z :: b, n + 1, ha, hb =>
        rw [List.zip_cons_cons, List.foldl_cons, ih b n (by simpa using ha) (by simpa using hb) (fun m hm => fa m (List.mem_cons_of_mem _ hm))
          (fun m hm => fb m (List.mem_cons_of_mem _ hm)), foldl_squares x z feats (fa x (List.mem_cons_self ..)) (fb z (List.mem_cons_self ..)),
          List.range_succ_eq_map, List.map_cons, List.sum_cons, List.map_map, ← add_assoc]
        rfl
  rw [this _ _ comps hp1 hq1 hp3 hq3, zero_add]

theorem EmReaches.head [Field K] [LinearOrder K] {lib : EmLib K Cov} {eps : K} {feats comps : Nat} {X : List (List K)} {p q r : EmParams K Cov}
    (h : EmTurn lib feats comps X p q) (hd : ¬ emMoved lib feats comps p q < eps) (hr : EmReaches lib eps feats comps X q r) :
    EmReaches lib eps feats comps X p r := by
  induction hr with
  | start => exact .turn .start h hd
  | turn _ ht hm ih => exact .turn ih ht hm

theorem EmReaches.cases_head [Field K] [LinearOrder K] {lib : EmLib K Cov} {eps : K} {feats comps : Nat} {X : List (List K)} {p r : EmParams K Cov}
    (hr : EmReaches lib eps feats comps X p r) :
    p = r ∨ ∃ q, EmTurn lib feats comps X p q ∧ ¬ emMoved lib feats comps p q < eps ∧ EmReaches lib eps feats comps X q r := by
  induction hr with
  | start => exact Or.inl rfl
  | turn h ht hm ih =>
    rcases ih with rfl | ⟨q, h1, h2, h3⟩
    · exact Or.inr ⟨_, ht, hm, .start⟩
    · exact Or.inr ⟨q, h1, h2, .turn h3 ht hm⟩

/-- What the loop of `Fit` ends with. -/
theorem emLoop_spec [Field K] [LinearOrder K] (lib : EmLib K Cov) (eps : K) (feats comps : Nat) (X : List (List K)) (hc : 0 < comps)
    (p : EmParams K Cov) (hp : EmSized feats comps p) :
    (∀ fuel, emLoop lib eps feats comps X fuel p ≠ some Res.err) ∧
    (∀ r, (∃ fuel, emLoop lib eps feats comps X fuel p = some (Res.ok r)) ↔
      ∃ q, EmReaches lib eps feats comps X p q ∧ EmTurn lib feats comps X q r ∧ emMoved lib feats comps q r < eps) ∧
    ((∃ fuel, emLoop lib eps feats comps X fuel p = some Res.panic) ↔
      ∃ q, EmReaches lib eps feats comps X p q ∧ ¬ ∃ r, EmTurn lib feats comps X q r) := by
  have hfwd : ∀ fuel (p : EmParams K Cov), EmSized feats comps p → emLoop lib eps feats comps X fuel p ≠ some Res.err ∧
      (∀ r, emLoop lib eps feats comps X fuel p = some (Res.ok r) →
        ∃ q, EmReaches lib eps feats comps X p q ∧ EmTurn lib feats comps X q r ∧ emMoved lib feats comps q r < eps) ∧
      (emLoop lib eps feats comps X fuel p = some Res.panic → ∃ q, EmReaches lib eps feats comps X p q ∧ ¬ ∃ r, EmTurn lib feats comps X q r) := by
    intro fuel
    induction fuel with
    | zero => intro p _; simp [emLoop]
    | succ fuel ih =>
      intro p hp
      rcases emStep_spec lib feats comps X p hc hp with ⟨q, e, hq, ht⟩ | ⟨e, hno⟩
      · rw [emLoop, e]
        simp only
        rw [emDistance_eq lib feats comps p q hp hq]
        split
        · rename_i hd
          refine ⟨by simp, ?_, by simp⟩
          intro r hr
          have : q = r := by simpa using hr
          subst this
          exact ⟨p, .start, (ht q).2 rfl, hd⟩
        · rename_i hd
          obtain ⟨i1, i2, i3⟩ := ih q hq
          refine ⟨i1, ?_, ?_⟩
          · intro r hr
            obtain ⟨q', a, b⟩ := i2 r hr
            exact ⟨q', a.head ((ht q).2 rfl) hd, b⟩
          · intro hr
            obtain ⟨q', a, b⟩ := i3 hr
            exact ⟨q', a.head ((ht q).2 rfl) hd, b⟩
      · rw [emLoop, e]
        exact ⟨by simp, by simp, fun _ => ⟨p, .start, hno⟩⟩
  have hbwd : ∀ (p q : EmParams K Cov), EmReaches lib eps feats comps X p q → EmSized feats comps p → EmSized feats comps q ∧
      ∀ fuel res, emLoop lib eps feats comps X fuel q = some res → ∃ fuel', emLoop lib eps feats comps X fuel' p = some res := by
    intro p q h
    induction h with
    | start => exact fun hp => ⟨hp, fun fuel res h => ⟨fuel, h⟩⟩
    | turn h ht hm ih =>
      intro hp
      obtain ⟨hq, hi⟩ := ih hp
      rcases emStep_spec lib feats comps X _ hc hq with ⟨q', e, hq', hu⟩ | ⟨e, hno⟩
      · have := (hu _).1 ht
        subst this
        refine ⟨hq', fun fuel res hres => hi (fuel + 1) res ?_⟩
        rw [emLoop, e]
        simp only
        rw [emDistance_eq lib feats comps _ _ hq hq', if_neg hm, hres]
      · exact absurd ⟨_, ht⟩ hno
  refine ⟨fun fuel => (hfwd fuel p hp).1, fun r => ⟨fun ⟨fuel, h⟩ => (hfwd fuel p hp).2.1 r h, ?_⟩,
    ⟨fun ⟨fuel, h⟩ => (hfwd fuel p hp).2.2 h, ?_⟩⟩
  · rintro ⟨q, a, b, c⟩
    obtain ⟨hq, hi⟩ := hbwd p q a hp
    apply hi 1
    rcases emStep_spec lib feats comps X q hc hq with ⟨q', e, hq', hu⟩ | ⟨e, hno⟩
    · have := (hu _).1 b
      subst this
      rw [emLoop, e]
      simp only
      rw [emDistance_eq lib feats comps _ _ hq hq', if_pos c]
    · exact absurd ⟨_, b⟩ hno
  · rintro ⟨q, a, b⟩
    obtain ⟨hq, hi⟩ := hbwd p q a hp
    apply hi 1
    rcases emStep_spec lib feats comps X q hc hq with ⟨q', e, hq', hu⟩ | ⟨e, hno⟩
    · exact absurd ⟨q', (hu q').2 rfl⟩ b
    · rw [emLoop, e]

/-- The parameters `Fit` starts from. -/
theorem emStart_spec [Field K] [LinearOrder K] (lib : EmLib K Cov) (draw : Nat → Nat → K) (feats comps : Nat) (X : List (List K)) (hX : X ≠ []) :
    EmStart lib draw feats comps X ⟨initMeans draw X comps feats, List.replicate comps (lib.diagonal (List.replicate feats 1))⟩ ∧
    EmSized feats comps ⟨initMeans draw X comps feats, List.replicate comps (lib.diagonal (List.replicate feats 1))⟩ := by
  constructor
  · refine ⟨rfl, by simp [initMeans], ?_⟩
    intro k hk
    refine ⟨_, by simp only [initMeans]; rw [List.getElem?_map, List.getElem?_range hk]; rfl, by simp, ?_⟩
    intro j hj
    have hv0 : (X.map fun x => x.getD j 0).getD 0 0 ∈ X.map fun x => x.getD j 0 := by
      match X, hX with
      | x :: X, _ => simp
    obtain ⟨a1, a2, a3⟩ := vectorMin_spec (X.map fun x => x.getD j 0) ((X.map fun x => x.getD j 0).getD 0 0)
    obtain ⟨b1, b2, b3⟩ := vectorMax_spec (X.map fun x => x.getD j 0) ((X.map fun x => x.getD j 0).getD 0 0)
    have ha : vectorMin (X.map fun x => x.getD j 0) ((X.map fun x => x.getD j 0).getD 0 0) ∈ X.map fun x => x.getD j 0 := by
      rcases a3 with h | h
      · rw [h]; exact hv0
      · exact h
    have hb : vectorMax (X.map fun x => x.getD j 0) ((X.map fun x => x.getD j 0).getD 0 0) ∈ X.map fun x => x.getD j 0 := by
      rcases b3 with h | h
      · rw [h]; exact hv0
      · exact h
    obtain ⟨x, hx, ex⟩ := List.mem_map.mp ha
    obtain ⟨z, hz, ez⟩ := List.mem_map.mp hb
    refine ⟨x, hx, z, hz, ?_, ?_⟩
    · intro w hw
      rw [ex, ez]
      exact ⟨a2 _ (List.mem_map.mpr ⟨w, hw, rfl⟩), b2 _ (List.mem_map.mpr ⟨w, hw, rfl⟩)⟩
    · rw [ex, ez, List.getD_eq_getElem?_getD, List.getElem?_map, List.getElem?_range hj]
      rfl
  · refine ⟨by simp [initMeans], by simp, ?_⟩
    intro m hm
    simp only [initMeans, List.mem_map] at hm
    obtain ⟨k, _, rfl⟩ := hm
    simp

end Golearn
