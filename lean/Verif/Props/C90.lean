import Verif.Props.C64

/-! # C90: an error of one of the models of an ensemble -/

namespace Golearn

/-- The full property: `Predict` reaches its end although a model reports an error, so that the error can be returned:
some schedule gets past the last wait without a panic. -/
def ReportsModelErrors : Prop :=
  ∀ (b : Bagged) (fo : FloatOps) (srt : List Spec → List Spec) (g : Grid) (cpus : Nat) (ord : Nat → Grid → List Nat)
    (i : Nat) (f : Grid → Res Grid) (part : Grid), (∀ l, (srt l).Perm l) → 0 < cpus → b.classifiers[i]? = some f →
    b.predictionInstances srt i g = Res.ok part → f part = Res.err →
    ∃ sched s, (b.pipeline fo srt cpus ord g).Reaches [] sched s ∧ s.pos = .done ∧ s.crashed = false

section
variable {b : Bagged} {fo : FloatOps} {srt : List Spec → List Spec} {g : Grid}

theorem fails_vote {i : Nat} {f : Grid → Res Grid} {part : Grid} (hf : b.classifiers[i]? = some f)
    (hpart : b.predictionInstances srt i g = Res.ok part) (he : f part = Res.err) : voteOf b srt g i = none := by
  simp only [voteOf, Bagged.predictModel, hf, hpart, Res.orPanic, he, Option.getD_some]

private theorem inv_fails (cpus : Nat) (ord : Nat → Grid → List Nat)
    {sched : List Thread} {s : PipeState Grid (GoMap Nat (GoMap String Nat))}
    (h : (b.pipeline fo srt cpus ord g).Reaches [] sched s) (ha : s.crashed = false) :
    ∃ l, (b.pipeline fo srt cpus ord g).Inv (fun l _ => none ∉ l) (voteOf b srt g) s l := by
  have hp : ∀ i v, i < (b.pipeline fo srt cpus ord g).models → (b.pipeline fo srt cpus ord g).predict i = some v →
      v = voteOf b srt g i := by
    intro i v _ hv
    have hv' : b.predictModel srt g i = some v := hv
    simp only [voteOf, hv', Option.getD_some]
  have hR : ∀ (l : List (Option Grid)) t k i t', none ∉ l → i < (b.pipeline fo srt cpus ord g).models →
      (b.pipeline fo srt cpus ord g).count k t (voteOf b srt g i) = some t' → none ∉ l ++ [voteOf b srt g i] := by
    intro l t k i t' hl _ hc
    have hc' : tallyVote fo srt ord k t (voteOf b srt g i) = some t' := hc
    cases hv : voteOf b srt g i with
    | none => rw [hv] at hc'; simp [tallyVote] at hc'
    | some v => simpa using hl
  exact (Pipeline.inv_exec (R := fun l _ => none ∉ l) hp hR sched (Pipeline.inv_start (by simp)) h ha).1

/-- If a model returns an error, no schedule brings `Predict` past its last wait. -/
theorem C90_never_returns {cpus : Nat} (hc : 0 < cpus) (ord : Nat → Grid → List Nat) {i : Nat} {f : Grid → Res Grid}
    {part : Grid} (hf : b.classifiers[i]? = some f) (hpart : b.predictionInstances srt i g = Res.ok part)
    (he : f part = Res.err) {sched : List Thread} {s : PipeState Grid (GoMap Nat (GoMap String Nat))}
    (h : (b.pipeline fo srt cpus ord g).Reaches [] sched s) : s.pos ≠ .done ∨ s.crashed = true := by
  cases ha : s.crashed with
  | true => exact Or.inr rfl
  | false =>
    refine Or.inl fun hd => ?_
    obtain ⟨l, I⟩ := inv_fails cpus ord h ha
    obtain ⟨h1, h2, _⟩ := Pipeline.inv_done hc I hd
    refine h2 (h1.symm.subset ?_)
    have hi : i < b.classifiers.length := by
      by_contra hn
      rw [List.getElem?_eq_none (by omega)] at hf
      cases hf
    exact List.mem_map.2 ⟨i, List.mem_range.2 hi, fails_vote hf hpart he⟩

/-- Every schedule that cannot be carried on ends in a panic, which ends the calling program. -/
theorem C90_panics {cpus : Nat} (hc : 0 < cpus) (ord : Nat → Grid → List Nat) {i : Nat} {f : Grid → Res Grid}
    {part : Grid} (hf : b.classifiers[i]? = some f) (hpart : b.predictionInstances srt i g = Res.ok part)
    (he : f part = Res.err) {sched : List Thread} {s : PipeState Grid (GoMap Nat (GoMap String Nat))}
    (h : (b.pipeline fo srt cpus ord g).Reaches [] sched s)
    (hstuck : ∀ t, (b.pipeline fo srt cpus ord g).step s t = none) : s.crashed = true := by
  rcases C90_never_returns hc ord hf hpart he h with hd | hcr
  · cases ha : s.crashed with
    | true => rfl
    | false =>
      obtain ⟨l, I⟩ := inv_fails cpus ord h ha
      obtain ⟨t, s', hs⟩ := Pipeline.inv_progress hc I hd
      rw [hstuck t] at hs
      cases hs
  · exact hcr

/-- What holds: as long as every model succeeds, nothing panics and every schedule can be carried on to the end.
Missing: models that report an error. -/
theorem C90_success_partial {n : Nat} {lab : Nat → Nat → String} (H : b.Predicts fo srt g n lab)
    (hsrt : ∀ l, (srt l).Perm l) {cpus : Nat} (hc : 0 < cpus)
    {ord : Nat → Grid → List Nat} (hord : ∀ j (v : Grid), v.RowOrder (ord j v)) {sched : List Thread}
    {s : PipeState Grid (GoMap Nat (GoMap String Nat))}
    (h : (b.pipeline fo srt cpus ord g).Reaches [] sched s) :
    s.crashed = false ∧ ∃ more s', (b.pipeline fo srt cpus ord g).exec s more = some s' ∧ s'.pos = .done :=
  ⟨(C64_no_deadlock H hsrt hc hord h).1, C64_completes H hsrt hc hord h⟩

end

section Witness
private def fails : Bagged := ⟨[fun _ => Res.err], []⟩
private def g0 : Grid := .dense ⟨[], [], [], false, [], 0, [], 0, 0, 0⟩

/-- It is false of the code: with one model that reports an error, the program panics. -/
theorem C90_refuted : ¬ ReportsModelErrors := by
  intro H
  obtain ⟨sched, s, h1, h2, h3⟩ := H fails ⟨fun _ _ => "", fun _ _ => false⟩ id g0 1 (fun _ _ => []) 0 (fun _ => Res.err) _
    (fun l => List.Perm.refl _) (by decide) rfl rfl rfl
  rcases C90_never_returns (b := fails) (i := 0) (f := fun _ => Res.err) (by decide) (fun _ _ => []) rfl rfl rfl h1 with h | h
  · exact h h2
  · rw [h3] at h; cases h
end Witness

end Golearn
