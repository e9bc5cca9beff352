import Verif.Proofs.Fill

/-! # C149: several goroutines fill one table -/

namespace Golearn

/-- Goroutines that set and get cells of a table that is large enough, none of which sets a cell that is in the way of a cell of another
one: whatever the schedule, no call panics, and once all calls have returned the table is the one that the calls leave when the goroutines
work one after the other, and every goroutine has read what it reads when it works alone. -/
theorem C149_in_turn_partial (g : Group) (rows : Nat) (progs : List (List CellOp)) (sched : List Nat)
    (hs : g.alloc.length = rows * g.rowSize) (hin : ∀ p ∈ progs, ∀ x ∈ p, x.inside g rows) (hap : workApart g.kind progs) :
    ∃ st, (FillSt.start g progs).runs g sched = some st ∧
      (st.finished → (∃ outs, inTurn g progs.flatten = .ok (st.group g, outs)) ∧
        ∀ (i : Nat) (w : Filler) (p : List CellOp), st.fillers[i]? = some w → progs[i]? = some p →
          ∃ g', inTurn g p = .ok (g', w.got)) := by
  have hok : ∀ p ∈ progs, ∀ x ∈ p, opOk g g.alloc.length x := fun p hp x hx => inside_ok hs (hin p hp x hx)
  have hf := work_foots hin hap
  obtain ⟨st, m, e, hinv⟩ := fill_runs_inv hf sched (fill_start_inv hok)
  refine ⟨st, e, fun hfin => ?_⟩
  obtain ⟨h1, h2⟩ := inv_finished hok hf hinv hfin
  refine ⟨⟨opsOut g g.alloc progs.flatten, ?_⟩, fun i w p hw hp => ⟨{ g with alloc := opsApply g g.alloc p }, ?_⟩⟩
  · rw [inTurn_apply _ _ fun x hx => ?_]
    · have : st.mem.alloc = m := by rw [hinv.mem]; rfl
      rw [FillSt.group, this, h1]
    · obtain ⟨q, hq, hxq⟩ := List.mem_flatten.1 hx
      exact hok q hq x hxq
  · rw [inTurn_apply p g (hok p (List.mem_of_getElem? hp)), h2 i w p hw hp]

/-- So every cell has the last value that its goroutine set it to, and a cell that none has set has the value it had. -/
theorem C149_cells_partial (g : Group) (rows : Nat) (progs : List (List CellOp)) (sched : List Nat) (st : FillSt)
    (hs : g.alloc.length = rows * g.rowSize) (hin : ∀ p ∈ progs, ∀ x ∈ p, x.inside g rows) (hap : workApart g.kind progs)
    (hrun : (FillSt.start g progs).runs g sched = some st) (hfin : st.finished) (col row : Nat) (hc : col < g.attrs.length)
    (hr : row < rows) :
    (st.group g).get col row = match lastSet (col, row) progs.flatten with
      | some v => .ok (cellValue g.kind (some v))
      | none => g.get col row := by
  obtain ⟨st', e, h⟩ := C149_in_turn_partial g rows progs sched hs hin hap
  rw [hrun] at e
  injection e with e
  subst e
  obtain ⟨⟨outs, h⟩, _⟩ := h hfin
  refine inTurn_last progs.flatten (rows := rows) hs (fun x hx => ?_) h col row hc hr
  obtain ⟨q, hq, hxq⟩ := List.mem_flatten.1 hx
  exact hin q hq x hxq

/-- Attributes that are not binary: it is enough that no cell is set by one goroutine and set or got by another. -/
theorem C149_fixed (g : Group) (size rows : Nat) (progs : List (List CellOp)) (sched : List Nat) (hk : g.kind = .fixed size)
    (hs : g.alloc.length = rows * g.rowSize) (hin : ∀ p ∈ progs, ∀ x ∈ p, x.inside g rows) (ho : cellsOwned progs) :
    ∃ st, (FillSt.start g progs).runs g sched = some st ∧
      (st.finished → ∀ col row, col < g.attrs.length → row < rows →
        (st.group g).get col row = match lastSet (col, row) progs.flatten with
          | some v => .ok v
          | none => g.get col row) := by
  have hap : workApart g.kind progs := by rw [hk]; exact owned_apart ho
  obtain ⟨st, e, _⟩ := C149_in_turn_partial g rows progs sched hs hin hap
  refine ⟨st, e, fun hfin col row hc hr => ?_⟩
  rw [C149_cells_partial g rows progs sched st hs hin hap e hfin col row hc hr, hk]
  cases lastSet (col, row) progs.flatten <;> rfl

/-- Binary attributes: it is enough that the goroutines have different rows. -/
theorem C149_rows (g : Group) (rows : Nat) (progs : List (List CellOp)) (sched : List Nat)
    (hs : g.alloc.length = rows * g.rowSize) (hin : ∀ p ∈ progs, ∀ x ∈ p, x.inside g rows) (owner : Nat → Nat)
    (ho : ∀ (i : Nat) (p : List CellOp), progs[i]? = some p → ∀ x ∈ p, ∀ c, x.cell = some c → owner c.2 = i) :
    ∃ st, (FillSt.start g progs).runs g sched = some st ∧
      (st.finished → ∀ col row, col < g.attrs.length → row < rows →
        (st.group g).get col row = match lastSet (col, row) progs.flatten with
          | some v => .ok (cellValue g.kind (some v))
          | none => g.get col row) := by
  have hap : workApart g.kind progs := by
    intro i j p q hij hp hq x hx y hy
    cases x with
    | set col row v =>
      intro c hc
      have h1 := ho i p hp _ hx (col, row) rfl
      have h2 := ho j q hq y hy c hc
      have hne : row ≠ c.2 := by rintro rfl; exact hij (h1.symm.trans h2)
      cases g.kind with
      | fixed size => intro he; exact hne (congrArg Prod.snd he)
      | binary => exact .inl hne
    | get col row => trivial
    | extend add => trivial
  obtain ⟨st, e, _⟩ := C149_in_turn_partial g rows progs sched hs hin hap
  exact ⟨st, e, fun hfin => C149_cells_partial g rows progs sched st hs hin hap e hfin⟩

/-- No goroutine waits for another: once it has made as many steps as its calls need, two more than a cell has bytes for each, it is
done. -/
theorem C149_ends (g : Group) (progs : List (List CellOp)) (sched : List Nat) (st : FillSt)
    (hrun : (FillSt.start g progs).runs g sched = some st)
    (hn : ∀ (i : Nat) (p : List CellOp), progs[i]? = some p →
      p.length * ((match g.kind with | .fixed size => size | .binary => 1) + 2) ≤ sched.count i) : st.finished := by
  obtain ⟨h1, h2⟩ := runs_steps sched hrun
  intro w hw
  obtain ⟨i, hi, e⟩ := List.mem_iff_getElem.1 hw
  have hi' : i < progs.length := by rw [h1] at hi; simpa [FillSt.start] using hi
  have hp : progs[i]? = some progs[i] := List.getElem?_eq_getElem hi'
  have hb := h2 i ⟨progs[i], .idle, []⟩ w (by simp only [FillSt.start, List.getElem?_map, hp, Option.map_some])
    (by rw [List.getElem?_eq_getElem hi, e])
  have hc := hn i _ hp
  apply steps_zero (g := g)
  have : fillerSteps g ⟨progs[i], .idle, []⟩ = progs[i].length * (cellWidth g + 2) := by simp [fillerSteps, pcSteps]
  rw [this] at hb
  have : progs[i].length * (cellWidth g + 2) ≤ sched.count i := hc
  omega

/-! ## Where it fails -/

namespace C149

/-- One row of two binary attributes. -/
def bits : Group := { kind := .binary, attrs := [⟨0, .bin "a"⟩, ⟨1, .bin "b"⟩], alloc := [0#8] }

/-- One row of one attribute of two bytes. -/
def wide : Group := { kind := .fixed 2, attrs := [⟨0, .float "x" 2⟩], alloc := [0#8, 0#8] }

/-- Both goroutines read the byte of the row before one of them writes it. -/
def lost : List Nat := [0, 1, 0, 1, 0, 1]

/-- The first goroutine sets the cell between the copying of the storage and its replacement. -/
def grown : List Nat := [1, 0, 0, 0, 0, 1]

/-- The second goroutine reads the value when one byte of it has been set. -/
def torn : List Nat := [0, 0, 1, 1, 1, 1, 0, 0]

end C149

open C149 in
/-- Without that it is false: two goroutines that set different binary attributes of one row. -/
theorem C149_lost : ¬ AnyScheduleFills := by
  intro H
  have h := H bits 1 [[.set 0 0 [1#8]], [.set 1 0 [1#8]]] lost
    { mem := ⟨[[2#8]], 0⟩, fillers := [⟨[], .idle, []⟩, ⟨[], .idle, []⟩] } (by decide +kernel)
    (by intro p hp x hx
        simp only [List.mem_cons, List.not_mem_nil, or_false] at hp
        rcases hp with rfl | rfl <;> simp only [List.mem_singleton] at hx <;> subst hx <;> exact ⟨by decide, by decide, by decide⟩)
    (by intro i j p q hij hp hq col row v hx y hy he
        match i, j, hp, hq with
        | 0, 0, _, _ => exact hij rfl
        | 0, 1, hp, hq => cases hp; cases hq; simp only [List.mem_singleton] at hx hy; subst hy; cases hx; cases he
        | 1, 0, hp, hq => cases hp; cases hq; simp only [List.mem_singleton] at hx hy; subst hy; cases hx; cases he
        | 1, 1, _, _ => exact hij rfl
        | 0, j + 2, _, hq => cases hq
        | 1, j + 2, _, hq => cases hq
        | i + 2, _, hp, _ => cases hp)
    (by decide +kernel) (by decide +kernel) 0 0 [1#8] (by decide) (by decide) (by decide +kernel)
  revert h
  decide +kernel

open C149 in
/-- A value that is set while the table is extended can be lost, though the call has returned. `Extend` holds a lock, `Set` does not ask for
it. -/
theorem C149_extend_lost :
    ∃ st, (FillSt.start wide [[.set 0 0 [1#8, 2#8]], [.extend 2]]).runs wide grown = some st ∧ st.finished ∧
      (st.group wide).get 0 0 = .ok [0#8, 0#8] ∧ (st.group wide).get 0 1 = .ok [0#8, 0#8] :=
  ⟨{ mem := ⟨[[1#8, 2#8], [0#8, 0#8, 0#8, 0#8]], 1⟩, fillers := [⟨[], .idle, []⟩, ⟨[], .idle, []⟩] }, by decide +kernel⟩

open C149 in
/-- A goroutine that gets a cell while another one sets it can read bytes of the old value and bytes of the new one. -/
theorem C149_torn :
    ∃ st w, (FillSt.start wide [[.set 0 0 [1#8, 2#8]], [.get 0 0]]).runs wide torn = some st ∧ st.finished ∧
      st.fillers[1]? = some w ∧ w.got = [[1#8, 0#8]] ∧ (st.group wide).get 0 0 = .ok [1#8, 2#8] :=
  ⟨{ mem := ⟨[[1#8, 2#8]], 0⟩, fillers := [⟨[], .idle, []⟩, ⟨[], .idle, [[1#8, 0#8]]⟩] }, ⟨[], .idle, [[1#8, 0#8]]⟩, by decide +kernel⟩

/-! ## Examples -/

namespace C149

/-- Two rows of two attributes of two bytes. -/
def table : Group := { kind := .fixed 2, attrs := [⟨0, .float "x" 2⟩, ⟨1, .float "y" 2⟩], alloc := List.replicate 8 0#8 }

/-- Two goroutines, one for each attribute. The second one reads its values. -/
def work : List (List CellOp) :=
  [[.set 0 0 [1#8, 2#8], .set 0 1 [3#8, 4#8]], [.set 1 0 [5#8, 6#8], .get 1 0, .set 1 0 [7#8, 8#8]]]

/-- They take turns. -/
def turns : List Nat := (List.range 24).map (· % 2)

/-- Nine binary attributes in two rows: one goroutine has the first row, the other the second. -/
def flags : Group := { kind := .binary, attrs := (List.range 9).map fun i => ⟨i, .bin (toString i)⟩, alloc := List.replicate 4 0#8 }

def flagWork : List (List CellOp) := [[.set 0 0 [1#8], .set 8 0 [1#8], .set 0 0 [0#8]], [.set 1 1 [1#8], .get 1 1]]

end C149

open C149 in
/-- The hypotheses hold, all calls return, and the table has all the values. -/
example : table.alloc.length = 2 * table.rowSize ∧ (∀ p ∈ work, ∀ x ∈ p, x.inside table 2) ∧ cellsOwned work ∧
    (∃ st, (FillSt.start table work).runs table turns = some st ∧ st.finished ∧
      (st.group table).alloc = [1#8, 2#8, 7#8, 8#8, 3#8, 4#8, 0#8, 0#8] ∧ st.fillers.map Filler.got = [[], [[5#8, 6#8]]]) := by
  refine ⟨by decide, ?_, ?_, ⟨⟨⟨[[1#8, 2#8, 7#8, 8#8, 3#8, 4#8, 0#8, 0#8]], 0⟩,
    [⟨[], .idle, []⟩, ⟨[], .idle, [[5#8, 6#8]]⟩]⟩, by decide +kernel⟩⟩
  · intro p hp x hx
    simp only [work, List.mem_cons, List.not_mem_nil, or_false] at hp
    rcases hp with rfl | rfl <;> simp only [List.mem_cons, List.not_mem_nil, or_false] at hx
    · rcases hx with rfl | rfl <;> exact ⟨by decide, by decide, by decide⟩
    · rcases hx with rfl | rfl | rfl <;> first | exact ⟨by decide, by decide, by decide⟩ | exact ⟨by decide, by decide⟩
  · intro i j p q hij hp hq col row v hx y hy he
    match i, j, hp, hq with
    | 0, 0, _, _ => exact hij rfl
    | 1, 1, _, _ => exact hij rfl
    | 0, j + 2, _, hq => cases hq
    | 1, j + 2, _, hq => cases hq
    | i + 2, _, hp, _ => cases hp
    | 0, 1, hp, hq =>
      cases hp; cases hq
      simp only [List.mem_cons, List.not_mem_nil, or_false, CellOp.set.injEq] at hx hy
      rcases hx with ⟨rfl, rfl, rfl⟩ | ⟨rfl, rfl, rfl⟩ <;> rcases hy with rfl | rfl | rfl <;> cases he
    | 1, 0, hp, hq =>
      cases hp; cases hq
      simp only [List.mem_cons, List.not_mem_nil, or_false, CellOp.set.injEq, reduceCtorEq, false_or] at hx hy
      rcases hx with ⟨rfl, rfl, rfl⟩ | ⟨rfl, rfl, rfl⟩ <;> rcases hy with rfl | rfl <;> cases he

open C149 in
example : flags.alloc.length = 2 * flags.rowSize ∧ (∀ p ∈ flagWork, ∀ x ∈ p, x.inside flags 2) ∧
    (∀ (i : Nat) (p : List CellOp), flagWork[i]? = some p → ∀ x ∈ p, ∀ c, x.cell = some c → (fun r => r) c.2 = i) ∧
    (∃ st, (FillSt.start flags flagWork).runs flags ((List.range 20).map (· % 2)) = some st ∧ st.finished ∧
      (st.group flags).alloc = [0#8, 1#8, 2#8, 0#8] ∧ st.fillers.map Filler.got = [[], [[1#8]]]) := by
  refine ⟨by decide, ?_, ?_, ⟨{ mem := ⟨[[0#8, 1#8, 2#8, 0#8]], 0⟩, fillers := [⟨[], .idle, []⟩, ⟨[], .idle, [[1#8]]⟩] }, by decide +kernel⟩⟩
  · intro p hp x hx
    simp only [flagWork, List.mem_cons, List.not_mem_nil, or_false] at hp
    rcases hp with rfl | rfl <;> simp only [List.mem_cons, List.not_mem_nil, or_false] at hx
    · rcases hx with rfl | rfl | rfl <;> exact ⟨by decide, by decide, by decide⟩
    · rcases hx with rfl | rfl <;> first | exact ⟨by decide, by decide, by decide⟩ | exact ⟨by decide, by decide⟩
  · intro i p hp x hx c hc
    match i, hp with
    | 0, hp =>
      cases hp
      simp only [List.mem_cons, List.not_mem_nil, or_false] at hx
      rcases hx with rfl | rfl | rfl <;> cases hc <;> rfl
    | 1, hp =>
      cases hp
      simp only [List.mem_cons, List.not_mem_nil, or_false] at hx
      rcases hx with rfl | rfl <;> cases hc <;> rfl
    | i + 2, hp => cases hp

end Golearn
