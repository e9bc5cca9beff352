import Verif.Spec.Knn
import Verif.Proofs.Predict
import Verif.Proofs.Instances
import Verif.Proofs.View
import Verif.Props.C17
import Verif.Props.C26

/-! # Lemmas: nearest neighbours -/

namespace Golearn

/-! ## Argmax -/

theorem argmaxLoop_spec {V : Type} [LinearOrder V] (f : String → V) (l : List String) (b : String × V) :
    b.2 ≤ (argmaxLoop f l b).2 ∧ (∀ a ∈ l, f a ≤ (argmaxLoop f l b).2) ∧
    (argmaxLoop f l b = b ∨ ((argmaxLoop f l b).1 ∈ l ∧ (argmaxLoop f l b).2 = f (argmaxLoop f l b).1)) := by
  induction l generalizing b with
  | nil => exact ⟨le_refl _, by simp, Or.inl rfl⟩
  | cons a l ih =>
    unfold argmaxLoop
    by_cases h : f a > b.2
    · rw [if_pos h]
      obtain ⟨h1, h2, h3⟩ := ih (a, f a)
      refine ⟨h.le.trans h1, ?_, Or.inr ?_⟩
      · intro x hx
        rcases List.mem_cons.1 hx with rfl | hx
        · exact h1
        · exact h2 x hx
      · rcases h3 with h3 | ⟨h3, h4⟩
        · rw [h3]; exact ⟨List.mem_cons_self, rfl⟩
        · exact ⟨List.mem_cons_of_mem _ h3, h4⟩
    · rw [if_neg h]
      obtain ⟨h1, h2, h3⟩ := ih b
      refine ⟨h1, ?_, ?_⟩
      · intro x hx
        rcases List.mem_cons.1 hx with rfl | hx
        · exact (not_lt.1 h).trans h1
        · exact h2 x hx
      · rcases h3 with h3 | ⟨h3, h4⟩
        · exact Or.inl h3
        · exact Or.inr ⟨List.mem_cons_of_mem _ h3, h4⟩

theorem argmaxLoop_max {V : Type} [LinearOrder V] (f : String → V) (l : List String) (b : String × V)
    (hne : l ≠ []) (hb : ∀ a ∈ l, b.2 < f a) :
    (argmaxLoop f l b).1 ∈ l ∧ ∀ a ∈ l, f a ≤ f (argmaxLoop f l b).1 := by
  obtain ⟨h1, h2, h3⟩ := argmaxLoop_spec f l b
  obtain ⟨x, t, rfl⟩ := List.exists_cons_of_ne_nil hne
  rcases h3 with h3 | ⟨h3, h4⟩
  · have := (hb x List.mem_cons_self).trans_le (h2 x List.mem_cons_self)
    rw [h3] at this
    exact absurd this (lt_irrefl _)
  · refine ⟨h3, fun a ha => ?_⟩
    rw [← h4]
    exact h2 a ha

/-! ## Votes -/

theorem countVotes_spec {fo : FloatOps} {train : Grid} {lab : Nat → String} (vs : List Nat)
    (h : ∀ v ∈ vs, getClass fo train v = Res.ok (lab v)) (m : GoMap String Nat) :
    ∃ m', countVotes fo train m vs = Res.ok m' ∧
      (∀ c, (m'.get? c).getD 0 = (m.get? c).getD 0 + (vs.map lab).count c) ∧
      (∀ c, c ∈ m'.map Prod.fst ↔ c ∈ m.map Prod.fst ∨ c ∈ vs.map lab) := by
  induction vs generalizing m with
  | nil => exact ⟨m, rfl, by simp, by simp⟩
  | cons v vs ih =>
    obtain ⟨m', e1, e2, e3⟩ := ih (fun x hx => h x (List.mem_cons_of_mem _ hx)) (incr m (lab v))
    refine ⟨m', ?_, ?_, ?_⟩
    · unfold countVotes
      rw [h v List.mem_cons_self]
      exact e1
    · intro c
      rw [e2, incr_get, List.map_cons, List.count_cons]
      by_cases hc : lab v = c
      · simp [hc]; omega
      · simp [hc]
    · intro c
      rw [e3, ← GoMap.isSome_iff_mem, incr_isSome, GoMap.isSome_iff_mem, List.map_cons, List.mem_cons]
      constructor
      · rintro ((h1 | h1) | h1)
        · exact Or.inr (Or.inl h1.symm)
        · exact Or.inl h1
        · exact Or.inr (Or.inr h1)
      · rintro (h1 | h1 | h1)
        · exact Or.inl (Or.inr h1)
        · exact Or.inl (Or.inl h1.symm)
        · exact Or.inr h1

theorem get?_reset {κ ν : Type} [DecidableEq κ] [Zero ν] (m : GoMap κ ν) (c : κ) :
    ((GoMap.get? (m.map fun p => (p.1, (0 : ν))) c).getD 0) = 0 := by
  rw [GoMap.get?_map m (fun _ _ => (0 : ν))]
  cases m.get? c <;> rfl

theorem vote_spec {fo : FloatOps} {train : Grid} {lab : Nat → String} {ord : List String → List String}
    (hord : ∀ l, (ord l).Perm l) (m : GoMap String Nat) (vs : List Nat) (hne : vs ≠ [])
    (h : ∀ v ∈ vs, getClass fo train v = Res.ok (lab v)) :
    ∃ m' c, vote fo train ord m vs = Res.ok (m', c) ∧ Majority (vs.map lab) c := by
  obtain ⟨m', e1, e2, e3⟩ := countVotes_spec vs h (m.map fun p => (p.1, 0))
  have hcount : ∀ c, (m'.get? c).getD 0 = (vs.map lab).count c := by
    intro c
    rw [e2, get?_reset, Nat.zero_add]
  obtain ⟨v, t, rfl⟩ := List.exists_cons_of_ne_nil hne
  have hv : lab v ∈ m'.map Prod.fst := (e3 _).2 (Or.inr (by simp))
  have hkeys : ord (m'.map Prod.fst) ≠ [] := by
    intro hnil
    have := (hord (m'.map Prod.fst)).symm.subset hv
    rw [hnil] at this
    cases this
  obtain ⟨a1, a2⟩ := argmaxLoop_max (fun a => (((m'.get? a).getD 0 : Nat) : Int)) (ord (m'.map Prod.fst)) ("", -1) hkeys
    (by intro a _; show (-1 : Int) < _; omega)
  refine ⟨m', (argmaxLoop (fun a => (((m'.get? a).getD 0 : Nat) : Int)) (ord (m'.map Prod.fst)) ("", -1)).1, ?_, ?_⟩
  · unfold vote
    rw [e1]
    rfl
  · set w := (argmaxLoop (fun a => (((m'.get? a).getD 0 : Nat) : Int)) (ord (m'.map Prod.fst)) ("", -1)).1 with hw
    have hmax : ∀ c ∈ m'.map Prod.fst, ((v :: t).map lab).count c ≤ ((v :: t).map lab).count w := by
      intro c hc
      have := a2 c ((hord _).symm.subset hc)
      rw [hcount, hcount] at this
      exact_mod_cast this
    have hpos : 0 < ((v :: t).map lab).count w := by
      refine lt_of_lt_of_le ?_ (hmax _ hv)
      rw [List.count_pos_iff]
      simp
    refine ⟨List.count_pos_iff.1 hpos, fun c => ?_⟩
    by_cases hc : c ∈ (v :: t).map lab
    · exact hmax c ((e3 c).2 (Or.inr hc))
    · rw [List.count_eq_zero_of_not_mem hc]
      exact Nat.zero_le _

section
variable {R : Type} [Field R] [LinearOrder R] [IsStrictOrderedRing R]

theorem invLength_pos {l : R} (h : 0 ≤ l) : 0 < invLength l := by
  unfold invLength
  split
  · exact WithTop.coe_lt_top 0
  · rename_i hne
    have : 0 < 1 / l := one_div_pos.2 (lt_of_le_of_ne h (Ne.symm hne))
    exact_mod_cast this

theorem addWeight_get (m : GoMap String (WithTop R)) (k c : String) (w : WithTop R) :
    ((addWeight m k w).get? c).getD 0 = (m.get? c).getD 0 + if k = c then w else 0 := by
  unfold addWeight
  rw [GoMap.get?_set]
  by_cases h : k = c
  · subst h; simp
  · simp [h]

theorem addWeight_keys (m : GoMap String (WithTop R)) (k c : String) (w : WithTop R) :
    c ∈ (addWeight m k w).map Prod.fst ↔ k = c ∨ c ∈ m.map Prod.fst := by
  rw [← GoMap.isSome_iff_mem, ← GoMap.isSome_iff_mem]
  unfold addWeight
  rw [GoMap.get?_set]
  by_cases h : k = c
  · simp [h]
  · simp [h]

theorem labelWeight_cons (lab : Nat → String) (p : Nat × R) (out : List (Nat × R)) (c : String) :
    labelWeight lab (p :: out) c = (if lab p.1 = c then invLength p.2 else 0) + labelWeight lab out c := by
  unfold labelWeight
  rw [List.filter_cons]
  by_cases h : lab p.1 = c
  · simp [h]
  · simp [h]

theorem sumWeights_spec {fo : FloatOps} {train : Grid} {lab : Nat → String} (out : List (Nat × R))
    (h : ∀ p ∈ out, getClass fo train p.1 = Res.ok (lab p.1)) (m : GoMap String (WithTop R)) :
    ∃ m', sumWeights fo train m out = Res.ok m' ∧
      (∀ c, (m'.get? c).getD 0 = (m.get? c).getD 0 + labelWeight lab out c) ∧
      (∀ c, c ∈ m'.map Prod.fst ↔ c ∈ m.map Prod.fst ∨ c ∈ out.map fun p => lab p.1) := by
  induction out generalizing m with
  | nil => exact ⟨m, rfl, by simp [labelWeight], by simp⟩
  | cons p out ih =>
    obtain ⟨m', e1, e2, e3⟩ := ih (fun x hx => h x (List.mem_cons_of_mem _ hx)) (addWeight m (lab p.1) (invLength p.2))
    refine ⟨m', ?_, ?_, ?_⟩
    · unfold sumWeights
      rw [h p List.mem_cons_self]
      exact e1
    · intro c
      rw [e2, addWeight_get, labelWeight_cons, add_assoc]
    · intro c
      rw [e3, addWeight_keys, List.map_cons, List.mem_cons]
      constructor
      · rintro ((h1 | h1) | h1)
        · exact Or.inr (Or.inl h1.symm)
        · exact Or.inl h1
        · exact Or.inr (Or.inr h1)
      · rintro (h1 | h1 | h1)
        · exact Or.inl (Or.inr h1)
        · exact Or.inl (Or.inl h1.symm)
        · exact Or.inr h1

theorem labelWeight_nonneg (lab : Nat → String) (out : List (Nat × R)) (hd : ∀ p ∈ out, 0 ≤ p.2) (c : String) :
    0 ≤ labelWeight lab out c := by
  induction out with
  | nil => simp [labelWeight]
  | cons p out ih =>
    rw [labelWeight_cons]
    have h1 := ih (fun x hx => hd x (List.mem_cons_of_mem _ hx))
    have h2 : (0 : WithTop R) ≤ if lab p.1 = c then invLength p.2 else 0 := by
      split
      · exact (invLength_pos (hd p List.mem_cons_self)).le
      · exact le_refl _
    exact add_nonneg h2 h1

theorem labelWeight_pos_iff (lab : Nat → String) (out : List (Nat × R)) (hd : ∀ p ∈ out, 0 ≤ p.2) (c : String) :
    0 < labelWeight lab out c ↔ c ∈ out.map fun p => lab p.1 := by
  induction out with
  | nil => simp [labelWeight]
  | cons p out ih =>
    rw [labelWeight_cons, List.map_cons, List.mem_cons]
    have hd' : ∀ p ∈ out, 0 ≤ p.2 := fun x hx => hd x (List.mem_cons_of_mem _ hx)
    have h1 := labelWeight_nonneg lab out hd' c
    by_cases hc : lab p.1 = c
    · rw [if_pos hc]
      have : 0 < invLength p.2 + labelWeight lab out c :=
        add_pos_of_pos_of_nonneg (invLength_pos (hd p List.mem_cons_self)) h1
      simp [this, hc]
    · rw [if_neg hc, zero_add, ih hd']
      simp [Ne.symm hc]

theorem weightedVote_spec {fo : FloatOps} {train : Grid} {lab : Nat → String} {ord : List String → List String}
    (hord : ∀ l, (ord l).Perm l) (m : GoMap String (WithTop R)) (out : List (Nat × R)) (hne : out ≠ [])
    (hd : ∀ p ∈ out, 0 ≤ p.2) (h : ∀ p ∈ out, getClass fo train p.1 = Res.ok (lab p.1)) :
    ∃ m' c, weightedVote fo train ord m out = Res.ok (m', c) ∧ Heaviest lab out c := by
  obtain ⟨m', e1, e2, e3⟩ := sumWeights_spec out h (m.map fun p => (p.1, 0))
  have hw : ∀ c, (m'.get? c).getD 0 = labelWeight lab out c := by
    intro c
    rw [e2, get?_reset, zero_add]
  obtain ⟨v, t, rfl⟩ := List.exists_cons_of_ne_nil hne
  have hv : lab v.1 ∈ m'.map Prod.fst := (e3 _).2 (Or.inr (by simp))
  have hkeys : ord (m'.map Prod.fst) ≠ [] := by
    intro hnil
    have := (hord (m'.map Prod.fst)).symm.subset hv
    rw [hnil] at this
    cases this
  obtain ⟨a1, a2⟩ := argmaxLoop_max (fun a => (m'.get? a).getD 0) (ord (m'.map Prod.fst)) ("", ((-1 : R) : WithTop R)) hkeys
    (by
      intro a _
      show ((-1 : R) : WithTop R) < (m'.get? a).getD 0
      rw [hw]
      refine lt_of_lt_of_le ?_ (labelWeight_nonneg lab _ hd a)
      have : (-1 : R) < 0 := by norm_num
      exact_mod_cast this)
  refine ⟨m', (argmaxLoop (fun a => (m'.get? a).getD 0) (ord (m'.map Prod.fst)) ("", ((-1 : R) : WithTop R))).1, ?_, ?_⟩
  · unfold weightedVote
    rw [e1]
    rfl
  · set w := (argmaxLoop (fun a => (m'.get? a).getD 0) (ord (m'.map Prod.fst)) ("", ((-1 : R) : WithTop R))).1 with hw'
    have hmax : ∀ c ∈ m'.map Prod.fst, labelWeight lab (v :: t) c ≤ labelWeight lab (v :: t) w := by
      intro c hc
      have := a2 c ((hord _).symm.subset hc)
      rw [hw, hw] at this
      exact this
    have hpos : 0 < labelWeight lab (v :: t) w :=
      lt_of_lt_of_le ((labelWeight_pos_iff lab _ hd _).2 (by simp)) (hmax _ hv)
    refine ⟨(labelWeight_pos_iff lab _ hd _).1 hpos, fun c => ?_⟩
    by_cases hc : c ∈ (v :: t).map fun p => lab p.1
    · exact hmax c ((e3 c).2 (Or.inr hc))
    · have : ¬ 0 < labelWeight lab (v :: t) c := fun h => hc ((labelWeight_pos_iff lab _ hd _).1 h)
      exact (not_lt.1 this).trans hpos.le

end

end Golearn
