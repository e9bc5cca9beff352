import Verif.Proofs.World
import Mathlib.Tactic.FinCases

/-! # C119: tables do not share storage -/

namespace Golearn

/-- Whatever a client does with any number of tables, views, filtered grids, copies and slices: a
table changes only through calls on that table and through writes into slices that table handed out.
Every other step leaves it, and every view or filtered grid on top of it, exactly as it was. -/
theorem C119_tables_separate (pg : Nat) (srt : List Spec → List Spec) (before after : List MOp)
    (w w' : World) (h : World.run pg srt before = Res.ok w)
    (h' : World.runFrom pg srt w after = Res.ok w') (i : Nat) (hi : i < w.tables.length)
    (hno : ∀ op ∈ after, ¬ op.actsOn w'.held i) :
    w'.table i = w.table i ∧ ∀ g : HGrid, g.root = i → w'.grid g = w.grid g := by
  have I := run_inv_world pg srt before h
  have R := runFrom_other pg srt i w'.held after I h' ⟨[], by simp⟩ hi hno
  exact ⟨R.2, fun g hg => grid_congr g (hg ▸ R.2)⟩

/-- The calls have the effect the value model gives them, whatever slices are shared: after any
history each call succeeds or fails as on plain values, and leaves on the table it names the contents
computed on plain values. For `Set` this is so even when the slice passed in is a window into the very
storage being written, and for the row swap of `Shuffle` and `Sort` although it passes such windows. -/
theorem C119_calls_on_values (pg : Nat) (srt : List Spec → List Spec) (ops : List MOp) (w : World)
    (h : World.run pg srt ops = Res.ok w) (i : Nat) (hi : i < w.tables.length) :
    (∀ n, ∃ w', w.step pg srt (.extend i n) = Res.ok w' ∧ w'.table i = (w.table i).extend n) ∧
    (∀ b, (w.step pg srt (.build i b)).map (·.table i) = b.apply pg (w.table i)) ∧
    (∀ s row k x, w.shows k = some x →
      (w.step pg srt (.set i s row k)).map (·.table i) = (w.table i).set s row x) ∧
    (∀ a b, (w.step pg srt (.swap i a b)).map (·.table i) = (w.table i).swapRows srt a b) := by
  have I := run_inv_world pg srt ops h
  have hti : w.tables[i]? = some w.tables[i] := List.getElem?_eq_getElem hi
  obtain ⟨t, ht⟩ : ∃ t, t = w.tables[i] := ⟨_, rfl⟩
  rw [← ht] at hti
  have hT : w.table i = t.at_ w.mem := by simp [World.table, tableAt_some hti]
  have ok := I.ok t (List.mem_of_getElem? hti)
  have hset : ∀ t' : HTable, tableAt (w.tables.set i t') i = t' := by
    intro t'; simp [tableAt, hi]
  have fin : ∀ (r : Res Mem) (s : Res Dense) (S : Nat → Prop),
      Sim (fun m' d => Ext S w.mem m' ∧ t.at_ m' = d) r s →
      (r.map fun m => { w with mem := m }).map (·.table i) = s := by
    intro r s S H
    cases r <;> cases s <;> simp_all [Sim, Res.map, World.table, tableAt_some hti]
  refine ⟨?_, ?_, ?_, ?_⟩
  · intro n
    refine ⟨⟨(t.extend w.mem n).2, w.tables.set i (t.extend w.mem n).1, w.held⟩,
      by simp only [World.step, hti], ?_⟩
    simp only [World.table, hset]
    rw [show tableAt w.tables i = t from tableAt_some hti]
    exact (HTable.place_ok _ _).2.2.1
  · intro b
    simp only [World.step, hti]
    rw [hT]
    cases hb : b.apply pg (t.at_ w.mem) with
    | err => rfl
    | panic => rfl
    | ok d =>
      obtain ⟨k, hk⟩ := build_allocs pg b hb
      have B := HTable.build_ok ok d k hk
      simp only [Res.map_ok, World.table, hset, B.2.2.1]
  · intro s row k x hx
    simp only [World.shows, Option.map_eq_some_iff] at hx
    obtain ⟨hd, hk, rfl⟩ := hx
    simp only [World.step, hti, hk]
    rw [hT]
    exact fin _ _ _ (HTable.set_sim ok s row hd.slice)
  · intro a b
    simp only [World.step, hti]
    rw [hT]
    exact fin _ _ _ (HTable.swapRows_sim srt ok a b)

/-- `Get` on a table, view or filtered grid, after any history: it fails exactly when it fails on
plain values, it changes no table, and the slice it returns shows the value of the cell. -/
theorem C119_get_on_values (pg : Nat) (srt : List Spec → List Spec) (ops : List MOp) (w : World)
    (h : World.run pg srt ops = Res.ok w) (g : HGrid) (s : Spec) (row : Nat) :
    (w.step pg srt (.get g s row)).map (fun w' => w'.shows w.held.length) =
      ((w.grid g).get s row).map some ∧
    ∀ w', w.step pg srt (.get g s row) = Res.ok w' → ∀ i, w'.table i = w.table i := by
  have I := run_inv_world pg srt ops h
  have S := HGrid.get_sim g I.ok s row
  constructor
  · simp only [World.step, World.grid]
    cases hg : g.get w.tables w.mem s row with
    | err => rw [hg] at S; cases hv : (g.at_ w.tables w.mem).get s row <;> rw [hv] at S <;> simp_all [Sim, Res.map]
    | panic => rw [hg] at S; cases hv : (g.at_ w.tables w.mem).get s row <;> rw [hv] at S <;> simp_all [Sim, Res.map]
    | ok p =>
      obtain ⟨x, hx, R⟩ := S.ok_left hg
      rw [hx]
      simp [World.shows, R.bytes]
  · intro w' hw i
    simp only [World.step, Res.map_eq_ok] at hw
    obtain ⟨p, hp, rfl⟩ := hw
    obtain ⟨x, _, R⟩ := S.ok_left hp
    exact HTable.at_ext R.grow (I.ok.tableAt i) (by simp)

namespace C119

def a : Attr := ⟨0, .float "a" 2⟩
def sa : Spec := ⟨some 0, 0, a⟩
/-- Two tables with one float column and two rows, one holding 5 in row 1; a slice read from each. -/
def start : List MOp :=
  [.new, .build 0 (.add a), .extend 0 2, .new, .build 1 (.add a), .extend 1 2, .make (packU64 5),
   .set 0 sa 1 0, .get (.table 0) sa 1, .get (.table 1) sa 1]
/-- Work on table 1 only: a `Set`, a swap, a write into the slice it handed out, an `Extend`. -/
def work : List MOp :=
  [.set 1 sa 0 1, .swap 1 0 1, .poke 2 (packU64 9), .extend 1 3]

end C119

open C119 in
/-- The hypotheses of `C119_tables_separate` are met by real work on another table, which changes. -/
example : ∃ w w', World.run 4096 id start = Res.ok w ∧ World.runFrom 4096 id w work = Res.ok w' ∧
    0 < w.tables.length ∧ (∀ op ∈ work, ¬ op.actsOn w'.held 0) ∧
    (w'.table 0).get sa 1 = Res.ok (packU64 5) ∧ (w.table 1).get sa 1 = Res.ok (packU64 0) ∧
    (w'.table 1).get sa 1 = Res.ok (packU64 9) := by
  refine ⟨_, _, rfl, rfl, by decide, ?_, by decide +kernel, by decide +kernel, by decide +kernel⟩
  intro op hop
  fin_cases hop
  · exact (by decide : ¬ (1 = 0))
  · exact (by decide : ¬ (1 = 0))
  · rintro ⟨h, hk, hs⟩
    have : h = ⟨⟨3, 8, 8⟩, some 1⟩ := (Option.some.inj (Eq.trans hk.symm (by rfl)))
    subst this
    exact absurd hs (by decide)
  · exact (by decide : ¬ (1 = 0))

open C119 in
/-- A `Set` whose argument is a window into the table being written, and a swap, after a history. -/
example : ∃ w, World.run 4096 id start = Res.ok w ∧ w.shows 1 = some (packU64 5) ∧
    (w.step 4096 id (.set 0 sa 0 1)).map (fun w' => (w'.table 0).get sa 0) =
      Res.ok (Res.ok (packU64 5)) ∧
    (w.step 4096 id (.swap 0 0 1)).map (fun w' => ((w'.table 0).get sa 0, (w'.table 0).get sa 1)) =
      Res.ok (Res.ok (packU64 5), Res.ok (packU64 0)) := by
  refine ⟨_, rfl, ?_, ?_, ?_⟩ <;> decide +kernel

end Golearn
