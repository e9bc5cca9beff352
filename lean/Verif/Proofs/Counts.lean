import Verif.Proofs.Tree
import Mathlib.Data.List.Dedup
import Mathlib.Algebra.BigOperators.Group.List.Basic
import Mathlib.Data.List.Nodup

/-! # Maps that count labels -/

namespace Golearn

/-- The map holds the number of times each label occurs, for the labels that occur. -/
def CountsL (m : GoMap String Nat) (ls : List String) : Prop :=
  (m.map Prod.fst).Nodup ∧ ∀ c, m.get? c = if c ∈ ls then some (ls.count c) else none

theorem countsL_nil : CountsL [] [] := ⟨by simp, by simp [GoMap.get?]⟩

theorem countsL_incr {m : GoMap String Nat} {ls : List String} (h : CountsL m ls) (c : String) :
    CountsL (incr m c) (ls ++ [c]) := by
  refine ⟨GoMap.nodup_set _ _ _ h.1, ?_⟩
  intro x
  unfold incr
  rw [GoMap.get?_set, h.2 c, h.2 x]
  by_cases hx : c = x
  · subst hx
    by_cases hm : c ∈ ls
    · simp [hm, List.count_append]
    · simp [hm, List.count_append, List.count_eq_zero.2 hm]
  · have hx' : x ≠ c := fun h => hx h.symm
    simp [hx, hx', List.count_append, List.count_singleton]

theorem countsL_of {m : GoMap String Nat} {ls : List String} (hn : (m.map Prod.fst).Nodup)
    (h1 : ∀ c, (m.get? c).getD 0 = ls.count c) (h2 : ∀ c, (m.get? c).isSome ↔ c ∈ ls) : CountsL m ls := by
  refine ⟨hn, ?_⟩
  intro c
  have a := h1 c
  have b := h2 c
  cases h : m.get? c with
  | none =>
    rw [h] at b
    simp only [Option.isSome_none, Bool.false_eq_true, false_iff] at b
    rw [if_neg b]
  | some k =>
    rw [h] at a b
    simp only [Option.isSome_some, true_iff] at b
    simp only [Option.getD_some] at a
    rw [if_pos b, a]

/-- A map is, up to order, the list of its values at its keys. -/
theorem goMap_perm {ν : Type} (m : GoMap String ν) (hn : (m.map Prod.fst).Nodup) (d : ν) {l : List String} (hl : l.Nodup)
    (hk : ∀ k, k ∈ l ↔ k ∈ m.map Prod.fst) : List.Perm m (l.map fun k => (k, (m.get? k).getD d)) := by
  have hp : (m.map Prod.fst).Perm l := (List.perm_ext_iff_of_nodup hn hl).2 fun k => (hk k).symm
  have h1 : List.map (fun k => (k, (m.get? k).getD d)) (m.map Prod.fst) = m := by
    rw [List.map_map]
    conv_rhs => rw [← List.map_id m]
    apply List.map_congr_left
    intro p hp
    have := (GoMap.get?_of_mem m hn p.1 p.2).1 hp
    simp only [Function.comp, this, Option.getD_some, id]
  have h2 := hp.map fun k => (k, (m.get? k).getD d)
  rw [h1] at h2
  exact h2

theorem countsL_perm {m : GoMap String Nat} {ls : List String} (h : CountsL m ls) :
    List.Perm m (ls.dedup.map fun c => (c, ls.count c)) := by
  have := goMap_perm m h.1 0 (List.nodup_dedup ls) (by
    intro k
    rw [List.mem_dedup, ← GoMap.isSome_iff_mem, h.2 k]
    by_cases hk : k ∈ ls <;> simp [hk])
  refine this.trans (List.Perm.of_eq ?_)
  apply List.map_congr_left
  intro c hc
  rw [h.2 c, if_pos (List.mem_dedup.1 hc), Option.getD_some]

theorem sum_count_dedup (ls : List String) : (ls.dedup.map fun c => ls.count c).sum = ls.length := by
  have h : ∀ (l : List String), l.Nodup → (∀ x ∈ ls, x ∈ l) → (l.map fun c => ls.count c).sum = ls.length := by
    intro l
    induction ls with
    | nil => intro _ _; simp
    | cons a as ih =>
      intro hl hm
      have e1 := ih hl (fun x hx => hm x (List.mem_cons_of_mem _ hx))
      have e2 : (l.map fun c => (a :: as).count c) = l.map fun c => as.count c + if a == c then 1 else 0 := by
        apply List.map_congr_left
        intro c _
        rw [List.count_cons]
      have e3 : (l.map fun c => if a == c then 1 else 0).sum = 1 := by
        have ha := hm a List.mem_cons_self
        clear ih e1 e2 hm
        induction l with
        | nil => cases ha
        | cons b bs ihb =>
          simp only [List.map_cons, List.sum_cons]
          rcases List.mem_cons.1 ha with rfl | h
          · have hz : (bs.map fun c => if a == c then 1 else 0).sum = 0 := by
              apply List.sum_eq_zero
              intro x hx
              obtain ⟨c, hc, rfl⟩ := List.mem_map.1 hx
              have : a ≠ c := fun h => (List.nodup_cons.1 hl).1 (h ▸ hc)
              simp [this]
            rw [hz]; simp
          · have hne : a ≠ b := fun hab => (List.nodup_cons.1 hl).1 (hab ▸ h)
            rw [ihb (List.nodup_cons.1 hl).2 h]
            simp [hne]
      rw [e2, List.sum_map_add, e1, e3, List.length_cons]
  exact h _ (List.nodup_dedup ls) (fun x hx => List.mem_dedup.2 hx)

theorem countsL_total {m : GoMap String Nat} {ls : List String} (h : CountsL m ls) :
    (m.map Prod.snd).sum = ls.length := by
  rw [((countsL_perm h).map Prod.snd).sum_eq, List.map_map]
  exact sum_count_dedup ls

/-- The distribution of the labels for each key. -/
def CountsBy (m : GoMap String (GoMap String Nat)) (sv cv : Nat → String) (rows : List Nat) : Prop :=
  (m.map Prod.fst).Nodup ∧ (∀ v, v ∈ m.map Prod.fst ↔ v ∈ rows.map sv) ∧
  ∀ v i, m.get? v = some i → CountsL i ((rows.filter fun r => sv r == v).map cv)

theorem countsBy_step {m : GoMap String (GoMap String Nat)} {sv cv : Nat → String} {rows : List Nat}
    (h : CountsBy m sv cv rows) (r : Nat) : CountsBy (splitRow m (sv r) (cv r)) sv cv (rows ++ [r]) := by
  obtain ⟨h1, h2, h3⟩ := h
  have hset : splitRow m (sv r) (cv r) = m.set (sv r) (incr ((m.get? (sv r)).getD []) (cv r)) ∨
      splitRow m (sv r) (cv r) = (m.set (sv r) []).set (sv r) (incr [] (cv r)) ∧ m.get? (sv r) = none := by
    unfold splitRow
    cases hg : m.get? (sv r) with
    | none => right; simp
    | some i => left; simp
  have hin : CountsL (incr ((m.get? (sv r)).getD []) (cv r))
      (((rows ++ [r]).filter fun q => sv q == sv r).map cv) := by
    have : ((rows ++ [r]).filter fun q => sv q == sv r).map cv =
        (rows.filter fun q => sv q == sv r).map cv ++ [cv r] := by simp
    rw [this]
    apply countsL_incr
    cases hg : m.get? (sv r) with
    | none =>
      have hz : (rows.filter fun q => sv q == sv r) = [] := by
        rw [List.filter_eq_nil_iff]
        intro q hq hqr
        have : sv r ∈ m.map Prod.fst := (h2 _).2 (List.mem_map.2 ⟨q, hq, by simpa using hqr⟩)
        rw [← GoMap.isSome_iff_mem, hg] at this
        cases this
      rw [hz]; exact countsL_nil
    | some i => exact h3 _ _ hg
  have hother : ∀ v, sv r ≠ v → ((rows ++ [r]).filter fun q => sv q == v) = rows.filter fun q => sv q == v := by
    intro v hv
    simp [hv]
  rcases hset with e | ⟨e, hnone⟩
  · rw [e]
    refine ⟨GoMap.nodup_set _ _ _ h1, ?_, ?_⟩
    · intro v
      rw [GoMap.mem_keys_set, h2 v]
      simp only [List.map_append, List.mem_append, List.map_cons, List.map_nil, List.mem_singleton]
      exact or_comm
    · intro v i hi
      rw [GoMap.get?_set] at hi
      by_cases hv : sv r = v
      · subst hv
        simp only [if_true, Option.some.injEq] at hi
        rw [← hi]; exact hin
      · rw [if_neg hv] at hi
        rw [hother v hv]; exact h3 v i hi
  · rw [e]
    rw [hnone] at hin
    refine ⟨GoMap.nodup_set _ _ _ (GoMap.nodup_set _ _ _ h1), ?_, ?_⟩
    · intro v
      rw [GoMap.mem_keys_set, GoMap.mem_keys_set, h2 v]
      simp only [List.map_append, List.mem_append, List.map_cons, List.map_nil, List.mem_singleton]
      constructor
      · rintro (h | h | h)
        · exact Or.inr h
        · exact Or.inr h
        · exact Or.inl h
      · rintro (h | h)
        · exact Or.inr (Or.inr h)
        · exact Or.inl h
    · intro v i hi
      rw [GoMap.get?_set, GoMap.get?_set] at hi
      by_cases hv : sv r = v
      · subst hv
        simp only [if_true, Option.some.injEq] at hi
        rw [← hi]; exact hin
      · rw [if_neg hv, if_neg hv] at hi
        rw [hother v hv]; exact h3 v i hi

theorem splitLoop_counts {fo : FloatOps} {g : Grid} {s : Spec} {key : Bytes → Res String} {sv cv : Nat → String}
    (rows : List Nat) : ∀ (done : List Nat) (m : GoMap String (GoMap String Nat)), CountsBy m sv cv done →
      (∀ r ∈ rows, ∃ v, g.get s r = Res.ok v ∧ key v = Res.ok (sv r) ∧ getClass fo g r = Res.ok (cv r)) →
      ∃ m', splitLoop fo g s key rows m = Res.ok m' ∧ CountsBy m' sv cv (done ++ rows) := by
  induction rows with
  | nil => intro done m h _; exact ⟨m, rfl, by simpa using h⟩
  | cons r rs ih =>
    intro done m h hr
    obtain ⟨v, v1, v2, v3⟩ := hr r (by simp)
    obtain ⟨m', m1, m2⟩ := ih (done ++ [r]) _ (countsBy_step h r) (fun q hq => hr q (by simp [hq]))
    refine ⟨m', ?_, by simpa using m2⟩
    simp only [splitLoop, v1, Res.bind_ok, v2, v3, m1]

theorem countsBy_nil (sv cv : Nat → String) : CountsBy [] sv cv [] :=
  ⟨by simp, by simp, by simp [GoMap.get?]⟩

end Golearn
