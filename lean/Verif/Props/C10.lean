import Verif.Proofs.Grid

/-! # C10: MapOverRows visits every row once, in order, and honours early stop -/

namespace Golearn

/-- A callback whose answer may depend on every call made to it so far (the last one included),
recording its calls. -/
def recorder (answer : List (List Bytes × Nat) → Ctl) :
    List (List Bytes × Nat) → List Bytes → Nat → Res (List (List Bytes × Nat) × Ctl) :=
  fun calls v r => Res.ok (calls ++ [(v, r)], answer (calls ++ [(v, r)]))

theorem mapOver_recorder (vals : Nat → Res (List Bytes)) (w : Nat → List Bytes)
    (answer : List (List Bytes × Nat) → Ctl) (rows : Nat)
    (hv : ∀ r, r < rows → vals r = Res.ok (w r)) (k : Nat) (hk : k ≤ rows) :
    let calls := fun n => (List.range n).map fun r => (w r, r)
    ∃ n e, mapOver vals (recorder answer) (calls k) ((List.range' k (rows - k))) = Res.ok (calls n, e) ∧
      k ≤ n ∧ n ≤ rows ∧ (∀ m, k < m → m < n → answer (calls m) = Ctl.cont) ∧
      ((n = rows ∧ e = false ∧ (k < n → answer (calls n) = Ctl.cont)) ∨
       (k < n ∧ e = false ∧ answer (calls n) = Ctl.stop) ∨
       (k < n ∧ e = true ∧ answer (calls n) = Ctl.error)) := by
  intro calls
  induction hd : rows - k generalizing k with
  | zero =>
    refine ⟨k, false, rfl, Nat.le_refl _, hk, by omega, Or.inl ⟨by omega, rfl, by omega⟩⟩
  | succ d ih =>
    have hklt : k < rows := by omega
    have hstep : calls k ++ [(w k, k)] = calls (k + 1) := by
      simp [calls, List.range_succ]
    rw [List.range'_succ]
    simp only [mapOver, hv k hklt, Res.bind_ok, recorder, hstep]
    cases ha : answer (calls (k + 1)) with
    | cont =>
      obtain ⟨n, e, h1, h2, h3, h4, h5⟩ := ih (k + 1) (by omega) (by omega)
      refine ⟨n, e, ?_, by omega, h3, ?_, ?_⟩
      · exact h1
      · intro m hm1 hm2
        by_cases hmk : m = k + 1
        · subst hmk; exact ha
        · exact h4 m (by omega) hm2
      · rcases h5 with ⟨q1, q2, q3⟩ | ⟨q1, q2, q3⟩ | ⟨q1, q2, q3⟩
        · refine Or.inl ⟨q1, q2, ?_⟩
          intro _
          by_cases hn : k + 1 < n
          · exact q3 hn
          · have : n = k + 1 := by omega
            subst this; exact ha
        · exact Or.inr (Or.inl ⟨by omega, q2, q3⟩)
        · exact Or.inr (Or.inr ⟨by omega, q2, q3⟩)
    | stop =>
      exact ⟨k + 1, false, rfl, by omega, by omega, by omega, Or.inr (Or.inl ⟨by omega, rfl, ha⟩)⟩
    | error =>
      exact ⟨k + 1, true, rfl, by omega, by omega, by omega, Or.inr (Or.inr ⟨by omega, rfl, ha⟩)⟩

/-- On `DenseInstances`, for any specifications handed out by the grid (in any order, with
repetitions), and whatever the callback answers: the calls made are exactly rows `0, 1, ..., n-1`,
once each and in order, each with the values `Get` returns for the requested specifications; all but
the last answered "continue"; and either every row was visited, or the last answer was "stop" (and
no error is returned) or an error (and that error is returned). -/
theorem C10_map_over_rows (pg : Nat) (ops : List Op) (st : St)
    (hl : noLateGroupAdd ops) (hrun : run pg ops = Res.ok st)
    (specs : List Spec) (hspecs : ∀ s ∈ specs, s ∈ st.handles)
    (order : List Nat) (horder : (Grid.dense st.d).RowOrder order)
    (answer : List (List Bytes × Nat) → Ctl) :
    ∃ w : Nat → List Bytes,
      (∀ r, r < totalRows ops →
        List.Forall₂ (fun s v => (Grid.dense st.d).get s r = Res.ok v) specs (w r)) ∧
      let calls := fun n => (List.range n).map fun r => (w r, r)
      ∃ n e, (Grid.dense st.d).mapOverRows specs order (recorder answer) [] = Res.ok (calls n, e) ∧
        n ≤ totalRows ops ∧ (∀ m, 0 < m → m < n → answer (calls m) = Ctl.cont) ∧
        ((n = totalRows ops ∧ e = false ∧ (0 < n → answer (calls n) = Ctl.cont)) ∨
         (0 < n ∧ e = false ∧ answer (calls n) = Ctl.stop) ∨
         (0 < n ∧ e = true ∧ answer (calls n) = Ctl.error)) := by
  obtain ⟨I, _, _⟩ := run_inv pg ops st hl hrun
  have hget : ∀ r, r < totalRows ops → ∀ s ∈ specs, ∃ v, st.d.get s r = Res.ok v := by
    intro r hr s hs
    obtain ⟨h, hh, hhs⟩ := List.getElem_of_mem (hspecs s hs)
    obtain ⟨k, _, hg⟩ := I.cells h s r (by rw [List.getElem?_eq_getElem hh, hhs]) hr
    exact ⟨_, hg⟩
  have hval : ∀ r, ∃ v, r < totalRows ops → mapRes (fun s => st.d.get s r) specs = Res.ok v := by
    intro r
    by_cases hr : r < totalRows ops
    · have : ∀ (l : List Spec), (∀ s ∈ l, ∃ v, st.d.get s r = Res.ok v) →
          ∃ v, mapRes (fun s => st.d.get s r) l = Res.ok v := by
        intro l
        induction l with
        | nil => intro _; exact ⟨[], rfl⟩
        | cons a as ih =>
          intro h
          obtain ⟨b, hb⟩ := h a (by simp)
          obtain ⟨bs, hbs⟩ := ih (fun s hs => h s (by simp [hs]))
          exact ⟨b :: bs, by simp [mapRes, hb, hbs]⟩
      obtain ⟨v, hv⟩ := this specs (hget r hr)
      exact ⟨v, fun _ => hv⟩
    · exact ⟨[], fun h => absurd h hr⟩
  obtain ⟨w, hw⟩ := Classical.axiomOfChoice hval
  refine ⟨w, fun r hr => (mapRes_eq_ok _ _ _).1 (hw r hr), ?_⟩
  have ho : order = List.range' 0 (totalRows ops - 0) := by
    simp only [Grid.RowOrder] at horder
    rw [horder, I.hrows, List.range_eq_range']
    rfl
  obtain ⟨n, e, h1, _, h3, h4, h5⟩ := mapOver_recorder
    ((Grid.dense st.d).rowVals specs) w answer (totalRows ops) hw 0 (Nat.zero_le _)
  refine ⟨n, e, ?_, h3, h4, h5⟩
  simp only [Grid.mapOverRows, Grid.mapPrep, Res.bind_ok, ho]
  exact h1

section Examples
private def ops1 : List Op :=
  [.add ⟨0, .float "a" 2⟩, .add ⟨1, .bin "b"⟩, .extend 3, .set 0 1 (packU64 5), .set 1 2 [1#8]]
/-- A three-row grid, the two columns requested in reverse order, a callback that stops at the
second call. -/
example : ∃ st, run 4096 ops1 = Res.ok st ∧
    (Grid.dense st.d).mapOverRows st.handles.reverse [0, 1, 2]
      (recorder fun calls => if calls.length = 2 then Ctl.stop else Ctl.cont) [] =
    Res.ok ([([[0#8], packU64 0], 0), ([[0#8], packU64 5], 1)], false) := by
  refine ⟨_, rfl, ?_⟩
  decide +kernel
end Examples

end Golearn
