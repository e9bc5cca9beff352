import Verif.Spec.Liblinear

/-! # C79: the choice of the solver -/

namespace Golearn

variable {K : Type}

/-- For a documented combination the solver is the one in the table and the form is the one that goes with it. Nothing else
changes. The error is nil exactly if the form is the one the parameters had. -/
theorem C79_documented (p : SvcParams K) (loss penalty : String) (s : Nat) (d : Bool)
    (h : svcTable loss penalty p.dual = some (s, d)) :
    (p.setKind loss penalty).1 = { p with solver := s, dual := d } ∧
      ((p.setKind loss penalty).2 = none ↔ d = p.dual) := by
  obtain ⟨p1, p2, p3, p4, p5, p6⟩ := p
  unfold svcTable at h
  split at h
  · cases h
    cases p6 <;> simp [SvcParams.setKind, setKindEnd, solverL2L1Dual]
  · next h' =>
    cases h
    simp only at h'
    subst h'
    simp [SvcParams.setKind, setKindEnd, solverL2L2Dual]
  · next h' =>
    cases h
    simp only at h'
    subst h'
    simp [SvcParams.setKind, setKindEnd, solverL2L2]
  · cases h
    cases p6 <;> simp [SvcParams.setKind, setKindEnd, solverL1L2]
  · cases h

example : svcTable "l2" "l1" true = some (5, false) ∧
    SvcParams.setKind (K := Nat) ⟨9, none, 1, 2, true, true⟩ "l2" "l1" = (⟨5, none, 1, 2, true, false⟩, some .toPrimal) := by
  decide +kernel

/-- Any other combination is an error. The solver is then 0, which is the number of a logistic regression solver, and the
rest is unchanged. -/
theorem C79_undocumented (p : SvcParams K) (loss penalty : String) (h : svcTable loss penalty p.dual = none) :
    (p.setKind loss penalty).1 = { p with solver := 0 } ∧ (p.setKind loss penalty).2 ≠ none := by
  unfold SvcParams.setKind
  by_cases h1 : loss = "l1"
  · subst h1
    by_cases h2 : penalty = "l2"
    · subst h2
      simp [svcTable] at h
    · by_cases h3 : penalty = "l1"
      · subst h3; simp
      · simp [h2, h3]
  · by_cases h4 : loss = "l2"
    · subst h4
      by_cases h2 : penalty = "l2"
      · subst h2
        cases hd : p.dual <;> simp [svcTable, hd] at h
      · by_cases h3 : penalty = "l1"
        · subst h3; simp [svcTable] at h
        · simp [h2, h3]
    · simp [h1, h4]

example : svcTable "l1" "l1" true = none ∧ svcTable "hinge" "l2" true = none ∧ svcTable "l2" "" false = none := by
  decide +kernel

/-- The documented combinations are those of the losses and penalties "l1" and "l2" except "l1" with "l1", whatever the
form. -/
theorem C79_documented_iff (loss penalty : String) (dual : Bool) :
    (svcTable loss penalty dual).isSome = true ↔
      (loss = "l1" ∧ penalty = "l2") ∨ (loss = "l2" ∧ penalty = "l2") ∨ (loss = "l2" ∧ penalty = "l1") := by
  unfold svcTable
  split <;> simp_all

/-- The full claim: a documented combination is accepted, and nothing else is. -/
def C79_accepts (K : Type) : Prop :=
  ∀ (p : SvcParams K) (loss penalty : String),
    (p.setKind loss penalty).2 = none ↔ (svcTable loss penalty p.dual).isSome = true

/-- It fails: an "l1" loss with an "l2" penalty is an error unless the dual form was asked for, although the parameters are
changed to the dual form. -/
theorem C79_refuses_documented (c : K) : ¬ C79_accepts K := by
  intro h
  have := (h ⟨0, none, c, c, false, false⟩ "l1" "l2").2 rfl
  simp [SvcParams.setKind, setKindEnd, solverL2L1Dual] at this

/-- What is missing in `C79_accepts` is only the case where the form is changed. -/
theorem C79_accepts_partial (p : SvcParams K) (loss penalty : String) :
    (p.setKind loss penalty).2 = none ↔ ∃ s, svcTable loss penalty p.dual = some (s, p.dual) := by
  cases h : svcTable loss penalty p.dual with
  | none =>
    have := (C79_undocumented p loss penalty h).2
    constructor
    · intro h'; exact absurd h' this
    · rintro ⟨s, hs⟩; cases hs
  | some q =>
    obtain ⟨s, d⟩ := q
    rw [(C79_documented p loss penalty s d h).2]
    constructor
    · rintro rfl; exact ⟨s, rfl⟩
    · rintro ⟨s', hs⟩
      cases hs
      rfl

example : (SvcParams.setKind (K := Nat) ⟨9, none, 1, 2, true, true⟩ "l1" "l2").2 = none ∧
    svcTable "l1" "l2" true = some (3, true) := by
  decide +kernel

/-- The error about a changed form is a notice: calling again accepts, and leaves the parameters as they are. -/
theorem C79_again (p : SvcParams K) (loss penalty : String) (h : (svcTable loss penalty p.dual).isSome = true) :
    (p.setKind loss penalty).1.setKind loss penalty = ((p.setKind loss penalty).1, none) := by
  obtain ⟨p1, p2, p3, p4, p5, p6⟩ := p
  rcases (C79_documented_iff loss penalty _).1 h with ⟨rfl, rfl⟩ | ⟨rfl, rfl⟩ | ⟨rfl, rfl⟩ <;> cases p6 <;>
    simp [SvcParams.setKind, setKindEnd, solverL2L1Dual, solverL2L2Dual, solverL2L2, solverL1L2]

/-- A solver that was accepted is never 0, so a support vector machine made with it is never trained as a logistic
regression. -/
theorem C79_no_logistic (p : SvcParams K) (loss penalty : String) (h : (p.setKind loss penalty).2 = none) :
    (p.setKind loss penalty).1.solver ≠ 0 := by
  obtain ⟨s, hs⟩ := (C79_accepts_partial p loss penalty).1 h
  rw [(C79_documented p loss penalty s _ hs).1]
  simp only
  generalize p.dual = b at hs
  unfold svcTable at hs
  split at hs <;> cases hs <;> simp

/-- `NewLinearSVC` succeeds exactly if the table gives the form that was asked for, and then liblinear gets the solver of the
table, the penalty and the tolerance. -/
theorem C79_constructor (loss penalty : String) (dual : Bool) (c eps : K) :
    (newLinearSVC loss penalty dual c eps).isOk = true ↔ ∃ s, svcTable loss penalty dual = some (s, dual) := by
  have := C79_accepts_partial (K := K) ⟨0, none, c, eps, false, dual⟩ loss penalty
  simp only at this
  rw [← this]
  unfold newLinearSVC
  simp only
  split
  · next e => rw [e]; simp [Res.isOk]
  · next e => rw [e]; simp [Res.isOk]

theorem C79_constructed (loss penalty : String) (dual : Bool) (c eps : K) (s : Nat)
    (h : svcTable loss penalty dual = some (s, dual)) :
    newLinearSVC loss penalty dual c eps =
      Res.ok { param := { solver := s, c := c, eps := eps },
               params := { solver := s, weights := none, c := c, eps := eps, auto := false, dual := dual } } := by
  obtain ⟨h1, h2⟩ := C79_documented (K := K) ⟨0, none, c, eps, false, dual⟩ loss penalty s dual h
  unfold newLinearSVC
  simp only
  rw [h2.2 rfl, h1]
  rfl

example : svcTable "l2" "l2" false = some (2, false) := by decide +kernel

/-- A logistic regression uses the solver with the penalty asked for; any other penalty is an error. -/
theorem C79_logistic (penalty : String) (c eps : K) :
    ((newLogistic penalty c eps).isOk = true ↔ penalty = "l1" ∨ penalty = "l2") ∧
      ∀ q, newLogistic penalty c eps = Res.ok q →
        q.c = c ∧ q.eps = eps ∧ ((penalty = "l2" ∧ q.solver = 0) ∨ (penalty = "l1" ∧ q.solver = 6)) := by
  unfold newLogistic solverL2LR solverL1LR
  split
  · next h => simp [h, Res.isOk]
  · split
    · next h => simp [h, Res.isOk]
    · next h1 h2 => simp [h1, h2, Res.isOk]

example : newLogistic "l1" (3 : Nat) 4 = Res.ok ⟨6, 3, 4⟩ := by decide +kernel

/-- A copy of the parameters equals them. -/
theorem C79_copy (p : SvcParams K) : p.copy = p := by
  obtain ⟨p1, p2, p3, p4, p5, p6⟩ := p
  cases p2 <;> rfl

end Golearn
