import Verif.Proofs.History

/-! # C02: a stored cell reads back what was last written -/

namespace Golearn

/-- After any history of `AddAttribute`, `Extend` and `Set` calls, for the `h`-th attribute added
(float or categorical) and every allocated row, `Get` returns the value of the most recent `Set` to
that cell, or eight zero bytes if there was none. -/
theorem C02_read_last_write (pg : Nat) (ops : List Op) (st : St)
    (hb : ∀ op ∈ ops, basicOp op = true) (hrun : run pg ops = Res.ok st)
    (h : Nat) (a : Attr) (ha : (addedAttrs ops)[h]? = some a) (h8 : a.isBin = false)
    (r : Nat) (hr : r < totalRows ops) :
    ∃ s, st.handles[h]? = some s ∧ s.attr = a ∧
      st.d.get s r = Res.ok ((lastWrite ops h r).getD (List.replicate 8 0#8)) := by
  obtain ⟨B, hl⟩ := run_basic pg ops st hb hrun
  obtain ⟨I, _, _⟩ := run_inv pg ops st (basic_noLate hb) hrun
  rw [← hl, List.getElem?_map, Option.map_eq_some_iff] at ha
  obtain ⟨s, hs, hsa⟩ := ha
  refine ⟨s, hs, hsa, ?_⟩
  obtain ⟨k, hk, hget⟩ := I.cells h s r hs hr
  rw [B.stored h s hs, hsa] at hk
  simp only [defaultKind, h8, Bool.false_eq_true, if_false, Option.some.injEq] at hk
  subst hk
  rw [hget]
  cases lastWrite ops h r <;> rfl

/-- The same for histories that also create named groups (of any width) and fill them before the
first `Extend`, and for class-attribute calls: the cell holds the last value written, in the form
its group stores (`cellValue`). -/
theorem C02_read_last_write_any_group (pg : Nat) (ops : List Op) (st : St)
    (hl : noLateGroupAdd ops) (hrun : run pg ops = Res.ok st) (h : Nat) (s : Spec)
    (hs : st.handles[h]? = some s) (r : Nat) (hr : r < totalRows ops) :
    ∃ k, kindOf st.d s = some k ∧ st.d.get s r = Res.ok (cellValue k (lastWrite ops h r)) :=
  (run_inv pg ops st hl hrun).1.cells h s r hs hr

section Examples
private def fl (n : Nat) (s : String) : Attr := ⟨n, .float s 2⟩
private def ct (n : Nat) (s : String) : Attr := ⟨n, .cat s ["x", "y"]⟩
private def ops1 : List Op :=
  [.add (fl 0 "a"), .add (ct 1 "b"), .extend 2, .set 0 1 (packU64 7), .set 1 0 (packU64 1),
   .set 0 1 (packU64 9), .extend 1]

/-- A history meeting the hypotheses, with two attributes, overwritten and untouched cells. -/
example : ∃ st, run 4096 ops1 = Res.ok st ∧ (∀ op ∈ ops1, basicOp op = true) ∧
    (addedAttrs ops1)[0]? = some (fl 0 "a") ∧ (1 : Nat) < totalRows ops1 ∧
    lastWrite ops1 0 1 = some (packU64 9) ∧ lastWrite ops1 0 2 = none := by
  refine ⟨_, rfl, ?_⟩
  decide +kernel

private def ops2 : List Op :=
  [.create "G" 2, .addTo (fl 0 "a") "G", .addTo (fl 1 "b") "G", .extend 2, .set 1 1 [3#8, 4#8],
    .addClass (fl 1 "b")]

example : ∃ st, run 4096 ops2 = Res.ok st ∧ st.handles.length = 2 ∧
    lastWrite ops2 1 1 = some [3#8, 4#8] := by
  refine ⟨_, rfl, ?_⟩
  decide +kernel

example : noLateGroupAdd ops2 := by
  intro pre n post e a ag hm
  simp only [ops2] at e
  rcases pre with _ | ⟨_, _ | ⟨_, _ | ⟨_, _ | ⟨_, _ | ⟨_, _ | ⟨_, pre⟩⟩⟩⟩⟩⟩ <;> simp at e <;>
    (obtain ⟨_, _, _, _, rfl⟩ := e; simp at hm)
end Examples

end Golearn
