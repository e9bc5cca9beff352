import Verif.Proofs.Bagging
import Verif.Proofs.PredLoop
import Verif.Proofs.Counts
import Verif.Spec.Bagging

/-! # The votes counted by a bagged model -/

namespace Golearn

/-- The class a vote shows for a row. -/
def voteLabel (fo : FloatOps) (v : Option Grid) (r : Nat) : String :=
  match v with
  | some g => (match getClass fo g r with | .ok c => c | _ => "")
  | none => ""

/-- The map after the votes `l` have been counted. -/
structure Tallied (fo : FloatOps) (n : Nat) (l : List (Option Grid)) (m : GoMap Nat (GoMap String Nat)) : Prop where
  nodup : (m.map Prod.fst).Nodup
  keys : ∀ r, r ∈ m.map Prod.fst ↔ r < n ∧ l ≠ []
  counts : ∀ r, r < n → CountsL ((m.get? r).getD []) (l.map fun v => voteLabel fo v r)

theorem tallied_nil (fo : FloatOps) (n : Nat) : Tallied fo n [] [] :=
  ⟨by simp, by simp, fun r _ => by simpa [GoMap.get?] using countsL_nil⟩

theorem tally_rows {fo : FloatOps} {g : Grid} {k : Nat → String} (order : List Nat) (hnd : order.Nodup)
    {vals : Nat → Res (List Bytes)} (hv : ∀ r ∈ order, ∃ b, vals r = Res.ok b)
    (hk : ∀ r ∈ order, getClass fo g r = Res.ok (k r)) (m : GoMap Nat (GoMap String Nat)) (hm : (m.map Prod.fst).Nodup) :
    ∃ m', mapOver vals (tallyCallback fo g) m order = Res.ok (m', false) ∧ (m'.map Prod.fst).Nodup ∧
      (∀ r, r ∈ m'.map Prod.fst ↔ r ∈ m.map Prod.fst ∨ r ∈ order) ∧
      ∀ r, (m'.get? r).getD [] = if r ∈ order then incr ((m.get? r).getD []) (k r) else (m.get? r).getD [] := by
  induction order generalizing m with
  | nil => exact ⟨m, rfl, hm, by simp, by simp⟩
  | cons x xs ih =>
    obtain ⟨b, hb⟩ := hv x List.mem_cons_self
    obtain ⟨m', h1, h2, h3, h4⟩ := ih (List.nodup_cons.1 hnd).2 (fun r hr => hv r (List.mem_cons_of_mem _ hr))
      (fun r hr => hk r (List.mem_cons_of_mem _ hr)) (m.set x (incr ((m.get? x).getD []) (k x)))
      (GoMap.nodup_set _ _ _ hm)
    refine ⟨m', ?_, h2, ?_, ?_⟩
    · simp only [mapOver, hb, Res.bind_ok, tallyCallback, hk x List.mem_cons_self, Res.map_ok]
      exact h1
    · intro r
      rw [h3, GoMap.mem_keys_set, List.mem_cons]
      constructor
      · rintro ((e | e) | e)
        · exact Or.inr (Or.inl (by first | exact e | exact e.symm))
        · exact Or.inl e
        · exact Or.inr (Or.inr e)
      · rintro (e | e | e)
        · exact Or.inl (Or.inr e)
        · exact Or.inl (Or.inl (by first | exact e | exact e.symm))
        · exact Or.inr e
    · intro r
      rw [h4]
      have hx := (List.nodup_cons.1 hnd).1
      by_cases e : x = r
      · subst e
        rw [if_neg hx, if_pos List.mem_cons_self, GoMap.get?_set, if_pos rfl]; rfl
      · rw [GoMap.get?_set, if_neg e]
        by_cases hr : r ∈ xs
        · rw [if_pos hr, if_pos (List.mem_cons_of_mem _ hr)]
        · rw [if_neg hr, if_neg]
          intro hh
          rcases List.mem_cons.1 hh with h | h
          · exact e h.symm
          · exact hr h

/-- Counting one more vote. -/
theorem tally_vote {fo : FloatOps} {srt : List Spec → List Spec} (hsrt : ∀ l, (srt l).Perm l)
    {ord : Nat → Grid → List Nat} {n : Nat} {g : Grid} {k : Nat → String} (S : ShowsClasses fo g n k)
    (hord : ∀ j, g.RowOrder (ord j g)) {l : List (Option Grid)} {m : GoMap Nat (GoMap String Nat)}
    (T : Tallied fo n l m) (j : Nat) :
    ∃ m', tallyVote fo srt ord j m (some g) = some m' ∧ Tallied fo n (l ++ [some g]) m' := by
  obtain ⟨P, c, hc, hca, hk⟩ := S
  have hsub : ∀ a ∈ g.allClassAttributes, a ∈ g.allAttributes := by
    rw [hc]; intro a ha; rw [List.mem_singleton.1 ha]; exact hca
  obtain ⟨sp, hsp⟩ := P.resolve_total hsub
  have hperm := hsrt sp
  have hs : ∀ s ∈ srt sp, ∃ a ∈ g.allAttributes, g.getAttribute a = Res.ok s := by
    intro s hs
    have hs' := hperm.mem_iff.1 hs
    obtain ⟨a, ha, h⟩ := forall₂_mem_right ((mapRes_eq_ok _ _ _).1 hsp) _ hs'
    refine ⟨a, hsub a ha, ?_⟩
    cases hg : g.getAttribute a with
    | ok t => rw [hg] at h; simpa using h
    | err => rw [hg] at h; cases h
    | panic => rw [hg] at h; cases h
  obtain ⟨i1, i2⟩ := P.iter (srt sp) hs
  have hp := P.order _ (hord j)
  have hlt : ∀ r ∈ ord j g, r < n := fun r hr => List.mem_range.1 (hp.mem_iff.1 hr)
  have hcls : ∀ r, r < n → getClass fo g r = Res.ok (k r) := fun r hr => getClass_ok P hc hca hk hr
  obtain ⟨m', h1, h2, h3, h4⟩ := tally_rows (fo := fo) (g := g) (k := k) (ord j g) (hp.nodup_iff.2 List.nodup_range)
    (vals := g.rowVals (srt sp)) (fun r hr => ⟨_, i2 r (hlt r hr)⟩) (fun r hr => hcls r (hlt r hr)) m T.nodup
  have hmem : ∀ r, r ∈ ord j g ↔ r < n := fun r => by rw [hp.mem_iff, List.mem_range]
  refine ⟨m', ?_, h2, ?_, ?_⟩
  · simp only [tallyVote, Grid.resolve, hsp, Res.map_ok, Res.bind_ok, Grid.mapOverRows, i1, h1, keepState]
  · intro r
    rw [h3, T.keys, hmem]
    constructor
    · rintro (h | h)
      · exact ⟨h.1, by simp⟩
      · exact ⟨h, by simp⟩
    · rintro ⟨h, _⟩
      exact Or.inr h
  · intro r hr
    rw [h4, if_pos ((hmem r).2 hr), List.map_append]
    have : voteLabel fo (some g) r = k r := by simp only [voteLabel, hcls r hr]
    simp only [List.map_cons, List.map_nil, this]
    exact countsL_incr (T.counts r hr) (k r)

end Golearn

namespace Golearn

/-- What classifier `i` hands to the collector. -/
theorem predicts_model {b : Bagged} {fo : FloatOps} {srt : List Spec → List Spec} {g : Grid} {n : Nat}
    {lab : Nat → Nat → String} (H : b.Predicts fo srt g n lab) {i : Nat} (hi : i < b.classifiers.length) :
    ∃ out, b.predictModel srt g i = some (some out) ∧ ShowsClasses fo out n (lab i) := by
  obtain ⟨part, out, h1, h2, h3⟩ := H i b.classifiers[i] (List.getElem?_eq_getElem hi)
  refine ⟨out, ?_, h3⟩
  simp only [Bagged.predictModel, List.getElem?_eq_getElem hi, h1, Res.orPanic, h2]

/-- The votes of the models, as a function of the number of the model. -/
def voteOf (b : Bagged) (srt : List Spec → List Spec) (g : Grid) (i : Nat) : Option Grid :=
  (b.predictModel srt g i).getD none

section
variable {b : Bagged} {fo : FloatOps} {srt : List Spec → List Spec} {g : Grid} {n : Nat} {lab : Nat → Nat → String}

theorem pipeline_predict (H : b.Predicts fo srt g n lab) (cpus : Nat) (ord : Nat → Grid → List Nat) :
    ∀ i, i < (b.pipeline fo srt cpus ord g).models →
      (b.pipeline fo srt cpus ord g).predict i = some (voteOf b srt g i) := by
  intro i hi
  obtain ⟨out, h1, _⟩ := predicts_model H hi
  show b.predictModel srt g i = some (voteOf b srt g i)
  simp only [voteOf, h1, Option.getD_some]

theorem pipeline_count (H : b.Predicts fo srt g n lab) (hsrt : ∀ l, (srt l).Perm l) (cpus : Nat)
    {ord : Nat → Grid → List Nat} (hord : ∀ j (v : Grid), v.RowOrder (ord j v)) :
    ∀ l t k i, Tallied fo n l t → i < (b.pipeline fo srt cpus ord g).models →
      ∃ t', (b.pipeline fo srt cpus ord g).count k t (voteOf b srt g i) = some t' ∧
        Tallied fo n (l ++ [voteOf b srt g i]) t' := by
  intro l t k i T hi
  obtain ⟨out, h1, h2⟩ := predicts_model H hi
  have e : voteOf b srt g i = some out := by simp only [voteOf, h1, Option.getD_some]
  rw [e]
  exact tally_vote hsrt h2 (fun j => hord j out) T k

theorem voteLabel_of (H : b.Predicts fo srt g n lab) {i r : Nat} (hi : i < b.classifiers.length) (hr : r < n) :
    voteLabel fo (voteOf b srt g i) r = lab i r := by
  obtain ⟨out, h1, P, c, hc, hca, hk⟩ := predicts_model H hi
  simp only [voteOf, h1, Option.getD_some, voteLabel, getClass_ok P hc hca hk hr]

/-- After the last wait, the map holds the votes of all models. -/
theorem tally_done (H : b.Predicts fo srt g n lab) (hsrt : ∀ l, (srt l).Perm l) {cpus : Nat} (hc : 0 < cpus)
    {ord : Nat → Grid → List Nat} (hord : ∀ j (v : Grid), v.RowOrder (ord j v)) {sched : List Thread}
    {s : PipeState Grid (GoMap Nat (GoMap String Nat))}
    (h : (b.pipeline fo srt cpus ord g).Reaches [] sched s) (hd : s.pos = .done) :
    (s.tally.map Prod.fst).Nodup ∧ (∀ r, r ∈ s.tally.map Prod.fst ↔ r < n ∧ 0 < b.classifiers.length) ∧
      ∀ r, r < n → ∃ ls, CountsL ((s.tally.get? r).getD []) ls ∧
        ls.Perm ((List.range b.classifiers.length).map fun i => lab i r) := by
  obtain ⟨⟨l, I⟩, _⟩ := Pipeline.alive_exec (pipeline_predict H cpus ord) (pipeline_count H hsrt cpus hord) sched
    (Pipeline.inv_start (tallied_nil fo n)) h
  obtain ⟨h1, T, _⟩ := Pipeline.inv_done hc I hd
  have h1' : l.Perm ((List.range b.classifiers.length).map (voteOf b srt g)) := h1
  refine ⟨T.nodup, ?_, ?_⟩
  · intro r
    rw [T.keys]
    have : l ≠ [] ↔ 0 < b.classifiers.length := by
      rw [← List.length_pos_iff, h1'.length_eq, List.length_map, List.length_range]
    rw [this]
  · intro r hr
    refine ⟨_, T.counts r hr, ?_⟩
    have := h1'.map fun v => voteLabel fo v r
    rw [List.map_map] at this
    refine this.trans (List.Perm.of_eq ?_)
    apply List.map_congr_left
    intro i hi
    exact voteLabel_of H (List.mem_range.1 hi) hr

end

end Golearn
