import Verif.Spec.ChiMerge
import Verif.Proofs.Discretise
import Mathlib.Data.List.Perm.Basic
import Mathlib.Tactic.Linarith
import Mathlib.Tactic.Order

namespace Golearn

variable {K : Type}

theorem addCounts_spec (f : GoMap String Nat) (hf : (f.map Prod.fst).Nodup) : ∀ (m : GoMap String Nat),
    ((m.map Prod.fst).Nodup → ((addCounts m f).map Prod.fst).Nodup) ∧
    (∀ c, ((addCounts m f).get? c).getD 0 = (m.get? c).getD 0 + (f.get? c).getD 0) ∧
    ∀ c, c ∈ (addCounts m f).map Prod.fst ↔ c ∈ m.map Prod.fst ∨ c ∈ f.map Prod.fst := by
  induction f with
  | nil => intro m; exact ⟨id, by simp [addCounts, GoMap.get?], by simp [addCounts]⟩
  | cons p ps ih =>
    intro m
    rw [List.map_cons, List.nodup_cons] at hf
    obtain ⟨h1, h2, h3⟩ := ih hf.2 (m.set p.1 ((m.get? p.1).getD 0 + p.2))
    have he : addCounts m (p :: ps) = addCounts (m.set p.1 ((m.get? p.1).getD 0 + p.2)) ps := rfl
    rw [he]
    refine ⟨fun h => h1 (GoMap.nodup_set _ _ _ h), ?_, ?_⟩
    · intro c
      rw [h2 c, GoMap.get?_set]
      have hg : GoMap.get? (p :: ps) c = if p.1 = c then some p.2 else GoMap.get? ps c := rfl
      rw [hg]
      by_cases hc : p.1 = c
      · subst hc
        have : GoMap.get? ps p.1 = none := by
          rw [← Option.not_isSome_iff_eq_none, GoMap.isSome_iff_mem]
          exact hf.1
        rw [if_pos rfl, if_pos rfl, this]
        simp
      · rw [if_neg hc, if_neg (fun h => hc (by first | exact h | exact h.symm))]
    · intro c
      rw [h3 c, GoMap.mem_keys_set]
      simp only [List.map_cons, List.mem_cons]
      tauto


/-! ## Merging -/

theorem merged_single (x : FreqEntry K) : Merged [x] x :=
  ⟨⟨x, [], rfl, rfl⟩, by simp, by simp⟩

theorem mergeEntries_spec {block : List (FreqEntry K)} {a y : FreqEntry K} (hm : Merged block a) (ha : a.Ok) (hy : y.Ok) :
    Merged (block ++ [y]) (mergeEntries a y) ∧ (mergeEntries a y).Ok := by
  obtain ⟨⟨x, rest, e1, e2⟩, h2, h3⟩ := hm
  obtain ⟨a1, a2, a3⟩ := addCounts_spec a.freq ha []
  obtain ⟨b1, b2, b3⟩ := addCounts_spec y.freq hy (addCounts [] a.freq)
  refine ⟨⟨⟨x, rest ++ [y], by rw [e1]; rfl, e2⟩, ?_, ?_⟩, b1 (a1 (by simp))⟩
  · intro c
    have : (mergeEntries a y).count c = a.count c + y.count c := by
      show ((addCounts (addCounts [] a.freq) y.freq).get? c).getD 0 = _
      rw [b2 c, a2 c]
      simp [GoMap.get?, FreqEntry.count]
    rw [this, h2 c]
    simp
  · intro c
    show c ∈ (addCounts (addCounts [] a.freq) y.freq).map Prod.fst ↔ _
    rw [b3 c, a3 c, h3 c]
    simp only [List.map_nil, List.not_mem_nil, false_or, List.mem_append, List.mem_singleton]
    constructor
    · rintro (⟨z, hz, h⟩ | h)
      · exact ⟨z, Or.inl hz, h⟩
      · exact ⟨y, Or.inr rfl, h⟩
    · rintro ⟨z, hz | rfl, h⟩
      · exact Or.inl ⟨z, hz, h⟩
      · exact Or.inr h

/-- Merging along flags: `bs[j]` says whether `rest[j]` is merged into what is before it. -/
def foldRuns (cur : FreqEntry K) : List Bool → List (FreqEntry K) → List (FreqEntry K)
  | true :: bs, y :: ys => foldRuns (mergeEntries cur y) bs ys
  | false :: bs, y :: ys => cur :: foldRuns y bs ys
  | _, _ => [cur]

/-- Positions of the true flags. -/
def posOf : List Bool → Nat → List Nat
  | [], _ => []
  | b :: bs, i => if b then i :: posOf bs (i + 1) else posOf bs (i + 1)

theorem mergeAdjacent_at (pre : List (FreqEntry K)) (a b : FreqEntry K) (rest : List (FreqEntry K)) :
    mergeAdjacent (pre ++ a :: b :: rest) pre.length = Res.ok (pre ++ mergeEntries a b :: rest) := by
  unfold mergeAdjacent
  have h1 : (pre ++ a :: b :: rest)[pre.length]? = some a := by simp
  have h2 : (pre ++ a :: b :: rest)[pre.length + 1]? = some b := by
    rw [List.getElem?_append_right (by omega)]
    simp
  rw [h1, h2]
  have h3 : (pre ++ a :: b :: rest).take pre.length = pre := by simp
  have h4 : (pre ++ a :: b :: rest).drop (pre.length + 2) = rest := by
    rw [List.drop_append]
    simp
  simp only [h3, h4]

theorem mergeAt_spec (bs : List Bool) : ∀ (pre : List (FreqEntry K)) (cur : FreqEntry K) (rest : List (FreqEntry K)) (k : Nat),
    bs.length = rest.length →
    mergeAt (posOf bs (pre.length + k)) k (pre ++ cur :: rest) = Res.ok (pre ++ foldRuns cur bs rest) := by
  induction bs with
  | nil =>
    intro pre cur rest k h
    have : rest = [] := List.length_eq_zero_iff.1 (by simpa using h.symm)
    subst this
    rfl
  | cons b bs ih =>
    intro pre cur rest k h
    match rest, h with
    | y :: ys, h =>
      have h' : bs.length = ys.length := by simpa using h
      cases b with
      | true =>
        simp only [posOf, if_true, mergeAt, foldRuns]
        rw [show pre.length + k - k = pre.length by omega, mergeAdjacent_at, Res.bind_ok]
        exact ih pre (mergeEntries cur y) ys (k + 1) h'
      | false =>
        simp only [posOf, Bool.false_eq_true, if_false, foldRuns]
        have := ih (pre ++ [cur]) y ys k h'
        rw [List.length_append, List.length_singleton, show pre.length + 1 + k = pre.length + k + 1 by omega] at this
        simpa using this

/-- Flags of neighbours. -/
def nbFlags {α : Type} (p : α → α → Bool) : List α → List Bool
  | x :: y :: l => p x y :: nbFlags p (y :: l)
  | _ => []

theorem nbFlags_length {α : Type} (p : α → α → Bool) (l : List α) : ∀ x, (nbFlags p (x :: l)).length = l.length := by
  induction l with
  | nil => intro x; rfl
  | cons y l ih => intro x; simp [nbFlags, ih]

/-- Prepending to the first of a list of lists. -/
def onHead {α : Type} (b0 : List α) : List (List α) → List (List α)
  | b :: bs => (b0 ++ b) :: bs
  | [] => []

theorem runs_cons {α : Type} (p : α → α → Bool) (x : α) (l : List α) : ∃ b bs, runs p (x :: l) = (x :: b) :: bs := by
  cases l with
  | nil => exact ⟨[], [], rfl⟩
  | cons y l =>
    unfold runs
    split
    · split
      · exact ⟨_, _, rfl⟩
      · exact ⟨_, _, rfl⟩
    · exact ⟨_, _, rfl⟩

theorem runs_true {α : Type} {p : α → α → Bool} {x y : α} (l : List α) (h : p x y = true) :
    runs p (x :: y :: l) = onHead [x] (runs p (y :: l)) := by
  obtain ⟨b, bs, hb⟩ := runs_cons p y l
  rw [runs, if_pos h, hb]
  rfl

theorem runs_false {α : Type} {p : α → α → Bool} {x y : α} (l : List α) (h : p x y = false) :
    runs p (x :: y :: l) = [x] :: runs p (y :: l) := by
  rw [runs, if_neg (by simp [h])]

theorem onHead_onHead {α : Type} (a b : List α) (l : List (List α)) : onHead a (onHead b l) = onHead (a ++ b) l := by
  cases l <;> simp [onHead]

theorem onHead_nil {α : Type} (l : List (List α)) : onHead [] l = l := by
  cases l <;> simp [onHead]

theorem runs_flatten {α : Type} (p : α → α → Bool) (l : List α) : (runs p l).flatten = l := by
  match l with
  | [] => rfl
  | x :: l =>
    induction l generalizing x with
    | nil => rfl
    | cons y l ih =>
      cases h : p x y with
      | true =>
        rw [runs_true l h]
        have := ih y
        obtain ⟨b, bs, hb⟩ := runs_cons p y l
        rw [hb] at this ⊢
        simp only [onHead, List.flatten_cons] at this ⊢
        rw [← this]; simp
      | false =>
        rw [runs_false l h, List.flatten_cons, ih y]
        rfl

theorem runs_length {α : Type} (p : α → α → Bool) (l : List α) : ∀ x, (runs p (x :: l)).length ≤ l.length + 1 ∧
    (true ∈ nbFlags p (x :: l) → (runs p (x :: l)).length ≤ l.length) := by
  induction l with
  | nil => intro x; simp [runs, nbFlags]
  | cons y l ih =>
    intro x
    obtain ⟨h1, h2⟩ := ih y
    cases h : p x y with
    | true =>
      rw [runs_true l h]
      have : (onHead [x] (runs p (y :: l))).length = (runs p (y :: l)).length := by
        cases runs p (y :: l) <;> rfl
      rw [this]
      exact ⟨by simp; omega, fun _ => by simpa using h1⟩
    | false =>
      rw [runs_false l h]
      refine ⟨by simp; omega, ?_⟩
      intro hm
      simp only [nbFlags, h, List.mem_cons, Bool.true_eq_false, false_or] at hm
      have := h2 hm
      simp; omega

theorem foldRuns_spec (p : FreqEntry K → FreqEntry K → Bool) (rest : List (FreqEntry K)) :
    ∀ (b0 : List (FreqEntry K)) (z cur : FreqEntry K), Merged (b0 ++ [z]) cur → cur.Ok → (∀ y ∈ rest, y.Ok) →
    List.Forall₂ Merged (onHead b0 (runs p (z :: rest))) (foldRuns cur (nbFlags p (z :: rest)) rest) ∧
    ∀ y ∈ foldRuns cur (nbFlags p (z :: rest)) rest, y.Ok := by
  induction rest with
  | nil =>
    intro b0 z cur h1 h2 _
    refine ⟨?_, by simp [foldRuns, nbFlags, h2]⟩
    simp only [runs, onHead, nbFlags, foldRuns]
    exact .cons h1 .nil
  | cons y ys ih =>
    intro b0 z cur h1 h2 h3
    have hy := h3 y (by simp)
    have hys : ∀ w ∈ ys, w.Ok := fun w hw => h3 w (by simp [hw])
    cases h : p z y with
    | true =>
      rw [runs_true ys h, onHead_onHead]
      simp only [nbFlags, h, foldRuns]
      obtain ⟨m1, m2⟩ := mergeEntries_spec h1 h2 hy
      exact ih (b0 ++ [z]) y _ m1 m2 hys
    | false =>
      rw [runs_false ys h]
      simp only [nbFlags, h, foldRuns, onHead]
      obtain ⟨i1, i2⟩ := ih [] y y (merged_single y) hy hys
      rw [onHead_nil] at i1
      refine ⟨.cons h1 i1, ?_⟩
      intro w hw
      rcases List.mem_cons.1 hw with rfl | hw
      · exact h2
      · exact i2 w hw

/-! ## The least statistic -/

theorem minChi_some [LinearOrder K] (xs : List K) : ∀ (i : Nat) (y : K) (idx : List Nat),
    ∃ m, minChi xs i (some y, idx) = (some m, (if m = y then idx else []) ++ posOf (xs.map fun x => decide (x = m)) i) ∧
      m ≤ y ∧ (∀ x ∈ xs, m ≤ x) ∧ (m = y ∨ m ∈ xs) := by
  induction xs with
  | nil => intro i y idx; exact ⟨y, by simp [minChi, posOf], le_rfl, by simp, Or.inl rfl⟩
  | cons x xs ih =>
    intro i y idx
    by_cases hxy : x < y
    · obtain ⟨m, h1, h2, h3, h4⟩ := ih (i + 1) x [i]
      refine ⟨m, ?_, by order, ?_, ?_⟩
      · have : minChi (x :: xs) i (some y, idx) = minChi xs (i + 1) (some x, [i]) := by
          simp [minChi, hxy]
        rw [this, h1]
        have hmy : m ≠ y := by order
        rw [if_neg hmy, List.map_cons, posOf]
        by_cases hm : m = x
        · subst hm; simp
        · simp [hm, Ne.symm hm]
      · intro z hz
        rcases List.mem_cons.1 hz with rfl | hz
        · exact h2
        · exact h3 z hz
      · rcases h4 with rfl | h4
        · exact Or.inr (by simp)
        · exact Or.inr (by simp [h4])
    · by_cases he : y = x
      · subst he
        obtain ⟨m, h1, h2, h3, h4⟩ := ih (i + 1) y (idx ++ [i])
        refine ⟨m, ?_, h2, ?_, ?_⟩
        · have : minChi (y :: xs) i (some y, idx) = minChi xs (i + 1) (some y, idx ++ [i]) := by
            simp [minChi]
          rw [this, h1, List.map_cons, posOf]
          by_cases hm : m = y
          · subst hm; simp
          · simp [hm, Ne.symm hm]
        · intro z hz
          rcases List.mem_cons.1 hz with rfl | hz
          · exact h2
          · exact h3 z hz
        · rcases h4 with rfl | h4
          · exact Or.inl rfl
          · exact Or.inr (by simp [h4])
      · obtain ⟨m, h1, h2, h3, h4⟩ := ih (i + 1) y idx
        refine ⟨m, ?_, h2, ?_, ?_⟩
        · have : minChi (x :: xs) i (some y, idx) = minChi xs (i + 1) (some y, idx) := by
            simp [minChi, hxy, he]
          rw [this, h1, List.map_cons, posOf]
          have hm : x ≠ m := by
            have : y < x := lt_of_le_of_ne (not_lt.1 hxy) he
            order
          simp [hm]
        · intro z hz
          rcases List.mem_cons.1 hz with rfl | hz
          · order
          · exact h3 z hz
        · rcases h4 with rfl | h4
          · exact Or.inl rfl
          · exact Or.inr (by simp [h4])

theorem minChi_spec [LinearOrder K] (xs : List K) (h : xs ≠ []) :
    ∃ m, minChi xs 0 (none, []) = (some m, posOf (xs.map fun x => decide (x = m)) 0) ∧ m ∈ xs ∧ ∀ x ∈ xs, m ≤ x := by
  match xs, h with
  | x :: xs, _ =>
    obtain ⟨m, h1, h2, h3, h4⟩ := minChi_some xs 1 x [0]
    refine ⟨m, ?_, ?_, ?_⟩
    · have : minChi (x :: xs) 0 (none, []) = minChi xs 1 (some x, [0]) := by simp [minChi]
      rw [this, h1, List.map_cons, posOf]
      by_cases hm : m = x
      · subst hm; simp
      · simp [hm, Ne.symm hm]
    · rcases h4 with rfl | h4 <;> simp [*]
    · intro z hz
      rcases List.mem_cons.1 hz with rfl | hz
      · exact h2
      · exact h3 z hz

theorem neighbourChi_flags [Field K] [LinearOrder K] (m : K) (l : List (FreqEntry K)) : ∀ x,
    (neighbourChi (x :: l)).map (fun v => decide (v = m)) =
      nbFlags (fun a b : FreqEntry K => decide (chiStatistic a.freq b.freq = m)) (x :: l) := by
  induction l with
  | nil => intro x; rfl
  | cons y l ih => intro x; simp only [neighbourChi, nbFlags, List.map_cons, ih y]

/-- One turn of the loop is a step of the method. -/
theorem chi_turn [Field K] [LinearOrder K] (t : List (FreqEntry K)) (ht : 2 ≤ t.length) (hok : ∀ e ∈ t, e.Ok) :
    ∃ m t', LeastChi t m ∧ minChi (neighbourChi t) 0 (none, []) = (some m, (minChi (neighbourChi t) 0 (none, [])).2) ∧
      mergeAt (minChi (neighbourChi t) 0 (none, [])).2 0 t = Res.ok t' ∧ (∀ e ∈ t', e.Ok) ∧ t'.length < t.length ∧
      List.Forall₂ Merged (runs (fun a b => decide (chiStatistic a.freq b.freq = m)) t) t' := by
  match t, ht with
  | x :: y :: l, _ =>
    obtain ⟨m, h1, h2, h3⟩ := minChi_spec (neighbourChi (x :: y :: l)) (by simp [neighbourChi])
    have hfl := neighbourChi_flags m (y :: l) x
    obtain ⟨g1, g2⟩ := foldRuns_spec (fun a b : FreqEntry K => decide (chiStatistic a.freq b.freq = m)) (y :: l) [] x x
      (merged_single x) (hok x (by simp)) (fun e he => hok e (by simp only [List.mem_cons] at he ⊢; tauto))
    rw [onHead_nil] at g1
    have hlen := g1.length_eq
    have hmem : true ∈ nbFlags (fun a b : FreqEntry K => decide (chiStatistic a.freq b.freq = m)) (x :: y :: l) := by
      rw [← hfl]
      exact List.mem_map.2 ⟨m, h2, by simp⟩
    have hlt := (runs_length _ (y :: l) x).2 hmem
    refine ⟨m, _, ⟨h2, h3⟩, by rw [h1], ?_, g2, ?_, g1⟩
    · rw [h1]
      simp only
      rw [hfl]
      have := mergeAt_spec (nbFlags (fun a b : FreqEntry K => decide (chiStatistic a.freq b.freq = m)) (x :: y :: l)) [] x (y :: l) 0
        (nbFlags_length _ _ _)
      simpa using this
    · rw [← hlen]
      simp only [List.length_cons] at hlt ⊢
      omega

theorem chiLoop_spec [Field K] [LinearOrder K] (below : K → Bool) (mn mx : Nat) (hmn : 2 ≤ mn) : ∀ (fuel : Nat) (t : List (FreqEntry K)),
    t.length ≤ fuel → (∀ e ∈ t, e.Ok) →
    ∃ out, chiLoop below mn mx fuel t = Res.ok out ∧ Relation.ReflTransGen (ChiStep below mn mx) t out ∧ ChiDone below mn mx out ∧
      ∀ e ∈ out, e.Ok := by
  intro fuel
  induction fuel with
  | zero =>
    intro t h hok
    exact ⟨t, rfl, .refl, Or.inl (by omega), hok⟩
  | succ fuel ih =>
    intro t h hok
    unfold chiLoop
    by_cases hl : t.length ≤ mn
    · rw [if_pos hl]
      exact ⟨t, rfl, .refl, Or.inl hl, hok⟩
    · rw [if_neg hl]
      obtain ⟨m, t', h1, h2, h3, h4, h5, h6⟩ := chi_turn t (by omega) hok
      have hfst : (minChi (neighbourChi t) 0 (none, [])).1 = some m := by rw [h2]
      simp only [hfst]
      by_cases hmerge : (decide (t.length > mx) || below m) = true
      · rw [if_pos hmerge, h3, Res.bind_ok]
        obtain ⟨out, e1, e2, e3, e4⟩ := ih t' (by omega) h4
        refine ⟨out, e1, .head ⟨by omega, m, h1, ?_, h6⟩ e2, e3, e4⟩
        simpa using hmerge
      · rw [if_neg hmerge]
        simp only [Bool.or_eq_true, decide_eq_true_eq, not_or] at hmerge
        refine ⟨t, rfl, .refl, Or.inr ⟨by omega, ?_⟩, hok⟩
        intro m' hm'
        have : m' = m := le_antisymm (hm'.2 _ h1.1) (h1.2 _ hm'.1)
        subst this
        simpa using hmerge.2

/-! ## Blocks -/

theorem merged_flatten {bs : List (List (FreqEntry K))} {b : List (FreqEntry K)} {e : FreqEntry K}
    (h : List.Forall₂ Merged bs b) (hm : Merged b e) : Merged bs.flatten e := by
  obtain ⟨⟨x, rest, e1, e2⟩, h2, h3⟩ := hm
  refine ⟨?_, ?_, ?_⟩
  · subst e1
    cases h with
    | cons h _ =>
      obtain ⟨⟨x0, r0, f1, f2⟩, _⟩ := h
      refine ⟨x0, _, by rw [List.flatten_cons, f1, List.cons_append], ?_⟩
      rw [e2, f2]
  · intro c
    rw [h2 c]
    clear e1 h2 h3
    induction h with
    | nil => rfl
    | cons h1 _ ih => rw [List.map_cons, List.sum_cons, ih, h1.2.1 c, List.flatten_cons, List.map_append, List.sum_append]
  · intro c
    rw [h3 c]
    clear e1 h2 h3
    induction h with
    | nil => simp
    | cons h1 _ ih =>
      simp only [List.mem_cons, List.flatten_cons, List.mem_append, exists_eq_or_imp, or_and_right, exists_or]
      rw [ih, exists_eq_left, h1.2.2 c]

theorem coarser_refl (t : List (FreqEntry K)) : Coarser t t := by
  refine ⟨t.map fun x => [x], ?_, ?_⟩
  · induction t with
    | nil => rfl
    | cons x t ih => simp [ih]
  · induction t with
    | nil => exact .nil
    | cons x t ih => exact .cons (merged_single x) ih

theorem coarser_trans {t t' t'' : List (FreqEntry K)} (h1 : Coarser t t') (h2 : Coarser t' t'') : Coarser t t'' := by
  obtain ⟨bs1, e1, f1⟩ := h1
  obtain ⟨bs2, e2, f2⟩ := h2
  subst e1 e2
  have key : ∀ bs1 : List (List (FreqEntry K)), List.Forall₂ Merged bs1 bs2.flatten →
      ∃ blocks, blocks.flatten = bs1.flatten ∧ List.Forall₂ Merged blocks t'' := by
    clear f1
    induction f2 with
    | nil =>
      intro bs1 h
      cases h
      exact ⟨[], rfl, .nil⟩
    | @cons b e bs es h1 _ ih =>
      intro bs1 h
      rw [List.flatten_cons] at h
      have ht := List.forall₂_take_append _ _ _ h
      have hd := List.forall₂_drop_append _ _ _ h
      obtain ⟨blocks, g1, g2⟩ := ih _ hd
      refine ⟨(bs1.take b.length).flatten :: blocks, ?_, .cons (merged_flatten ht h1) g2⟩
      rw [List.flatten_cons, g1, ← List.flatten_append, List.take_append_drop]
  exact key _ f1

theorem coarser_of_steps [Field K] [LinearOrder K] {below : K → Bool} {mn mx : Nat} {t out : List (FreqEntry K)}
    (h : Relation.ReflTransGen (ChiStep below mn mx) t out) : Coarser t out := by
  induction h with
  | refl => exact coarser_refl t
  | tail _ h ih =>
    obtain ⟨_, m, _, _, hf⟩ := h
    exact coarser_trans ih ⟨_, runs_flatten _ _, hf⟩

end Golearn
