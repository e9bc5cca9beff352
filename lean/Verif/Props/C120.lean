import Verif.Proofs.Sharing

/-! # C120: values a client has read -/

namespace Golearn

/-- Missing from the full claim "a value that was read stays as it was": it is false, see
`C120_not_a_snapshot`. What holds for attributes stored in whole bytes, read from a table or from a
view of one: the value that `Get` returned is a live window. After any further calls, on any tables,
that do not extend or restructure this table, the slice shows exactly what `Get` would return now. -/
theorem C120_live_partial (pg : Nat) (srt : List Spec → List Spec) (before after : List MOp)
    (w w1 w2 : World) (h : World.run pg srt before = Res.ok w) (g : HGrid) (s : Spec) (row : Nat)
    (hg : g.unfiltered) (hs : w.wholeBytes g.root s)
    (h1 : w.step pg srt (.get g s row) = Res.ok w1)
    (h2 : World.runFrom pg srt w1 after = Res.ok w2) (hno : ∀ op ∈ after, ¬ op.reshapes g.root) :
    ∃ x, w2.shows w.held.length = some x ∧ (w2.grid g).get s row = Res.ok x := by
  have I := run_inv_world pg srt before h
  have E := step_effect pg srt I _ h1
  obtain ⟨hf, hi⟩ := fixedAt_of hs
  simp only [World.step, Res.map_eq_ok] at h1
  obtain ⟨p, hp, rfl⟩ := h1
  obtain ⟨e1, hbuf, again⟩ := HGrid.get_fixed I.ok g s hg hf hp
  have X := runFrom_ext pg srt after E.inv h2
  have T := runFrom_shape pg srt g.root after E.inv h2 hi hno
  have I2 := runFrom_inv pg srt after E.inv h2
  simp only [e1] at X T h2
  have A := again w2.tables w2.mem T (fun b hb => X.len b ((I.ok.tableAt g.root).valid b hb))
  obtain ⟨new, en⟩ := runFrom_held pg srt after E.inv (by simpa [e1] using h2)
  obtain ⟨x, hx, R⟩ := (HGrid.get_sim g I2.ok s row).ok_left A
  refine ⟨x, ?_, hx⟩
  simp only [World.shows, en]
  rw [held_prefix (h := ⟨p.2, some g.root⟩) (by simp)]
  simpa using R.bytes

/-- Writing into such a window is writing the cell: after any calls that did not extend or restructure
the table, storing bytes of the right length in the slice changes the table exactly as `Set` would. -/
theorem C120_write_through (pg : Nat) (srt : List Spec → List Spec) (before after : List MOp)
    (w w1 w2 : World) (h : World.run pg srt before = Res.ok w) (i : Nat) (s : Spec) (row : Nat)
    (hs : w.wholeBytes i s) (h1 : w.step pg srt (.get (.table i) s row) = Res.ok w1)
    (h2 : World.runFrom pg srt w1 after = Res.ok w2) (hno : ∀ op ∈ after, ¬ op.reshapes i)
    (x y : Bytes) (hy : w2.shows w.held.length = some y) (hx : x.length = y.length) :
    ∃ w3, w2.step pg srt (.poke w.held.length x) = Res.ok w3 ∧
      (w2.table i).set s row x = Res.ok (w3.table i) := by
  have I := run_inv_world pg srt before h
  have E := step_effect pg srt I _ h1
  obtain ⟨hf, hi⟩ := fixedAt_of hs
  simp only [World.step, Res.map_eq_ok] at h1
  obtain ⟨p, hp, rfl⟩ := h1
  obtain ⟨e1, hbuf, again⟩ := HGrid.get_fixed I.ok (.table i) s trivial hf hp
  have X := runFrom_ext pg srt after E.inv h2
  have T := runFrom_shape pg srt i after E.inv h2 hi hno
  have I2 := runFrom_inv pg srt after E.inv h2
  obtain ⟨new, en⟩ := runFrom_held pg srt after E.inv h2
  simp only [e1] at X T
  have A := again w2.tables w2.mem T (fun b hb => X.len b ((I.ok.tableAt i).valid b hb))
  have hh : w2.held[w.held.length]? = some ⟨p.2, some i⟩ := by
    rw [en, held_prefix (h := ⟨p.2, some i⟩) (by simp [HGrid.root])]
  have hin := I2.inb _ (List.mem_of_getElem? hh)
  refine ⟨{ w2 with mem := w2.mem.poke p.2 x }, by simp only [World.step, hh], ?_⟩
  simp only [World.shows, hh, Option.map_some, Option.some.injEq] at hy
  have hlen : x.length = p.2.len := by rw [hx, ← hy]; exact bytes_length hin
  have hf2 : (tableAt w2.tables i).fixedAt s := by rw [T]; exact hf
  exact HTable.poke_set (I2.ok.tableAt i) hf2 A x hlen

/-- `Extend` cuts the window off: the slices a table handed out before keep showing what they showed at
that moment, whatever is done to the table afterwards, until the client itself writes into one of
them. -/
theorem C120_extend_detaches (pg : Nat) (srt : List Spec → List Spec) (before after : List MOp)
    (w w1 w2 : World) (h : World.run pg srt before = Res.ok w) (i n k : Nat) (hd : Held)
    (hk : w.held[k]? = some hd) (hsrc : hd.source = some i)
    (h1 : w.step pg srt (.extend i n) = Res.ok w1)
    (h2 : World.runFrom pg srt w1 after = Res.ok w2)
    (hno : ∀ k' x h', MOp.poke k' x ∈ after → w.held[k']? = some h' → h'.source ≠ some i) :
    w2.shows k = w.shows k := by
  have I := run_inv_world pg srt before h
  have E := step_effect pg srt I _ h1
  have hin := I.inb hd (List.mem_of_getElem? hk)
  obtain ⟨new, en⟩ := runFrom_held pg srt after E.inv h2
  simp only [World.step] at h1
  split at h1
  · cases h1
  · rename_i t hi
    cases h1
    have P := HTable.place_ok ((t.at_ w.mem).extend n) w.mem
    have key := runFrom_detached pg srt hd.slice.buf w.held.length after E.inv h2
      (Nat.lt_of_lt_of_le hin.1 E.ext.le) (by
        intro j u hu hb
        by_cases hj : i = j
        · subst hj
          have hlt := (List.getElem?_eq_some_iff.1 hi).1
          simp only [List.getElem?_set, if_true, hlt, Option.some.injEq] at hu
          subst hu
          have := P.2.2.2 _ hb
          have := hin.1
          omega
        · simp only [List.getElem?_set, if_neg hj] at hu
          have := I.own hd (List.mem_of_getElem? hk) j u hu hb
          rw [hsrc, Option.some.injEq] at this
          exact hj this) (by
        intro k' h' hk' hh'
        have := (List.getElem?_eq_some_iff.1 hh').1
        simp only at this
        omega) (by
        intro k' x h' hm _ hh' e
        exact hno k' x h' hm hh' ((I.same h' (List.mem_of_getElem? hh') hd (List.mem_of_getElem? hk) e).trans hsrc))
      (Nat.le_refl _)
    simp only [World.shows, en, held_prefix hk, hk, Option.map_some, Option.some.injEq]
    simp only [Mem.bytes, key]
    rw [show (t.extend w.mem n).2 = (HTable.place ((t.at_ w.mem).extend n) w.mem).2 from rfl,
      P.2.1.same _ hin.1 (by simp)]

/-- For attributes stored as bits, read from a table, the value is a snapshot: no later call on any
table changes it, only the client's own writes into it. -/
theorem C120_bits_snapshot (pg : Nat) (srt : List Spec → List Spec) (before after : List MOp)
    (w w1 w2 : World) (h : World.run pg srt before = Res.ok w) (i : Nat) (s : Spec) (row : Nat)
    (hs : w.bits i s) (h1 : w.step pg srt (.get (.table i) s row) = Res.ok w1)
    (h2 : World.runFrom pg srt w1 after = Res.ok w2)
    (hno : ∀ x, MOp.poke w.held.length x ∉ after) :
    w2.shows w.held.length = w1.shows w.held.length := by
  have I := run_inv_world pg srt before h
  have E := step_effect pg srt I _ h1
  obtain ⟨id, gr, hp, hg, hk⟩ := hs
  simp only [World.step, Res.map_eq_ok] at h1
  obtain ⟨p, hgp, rfl⟩ := h1
  refine snapshot pg srt I rfl E.inv ?_ after h2 hno
  simp only [HGrid.get, HTable.get, hp] at hgp
  simp only [World.table, HTable.at_ags, List.getElem?_zipWith] at hg
  cases ha : (tableAt w.tables i).shape.ags[id]? with
  | none => simp [ha] at hg
  | some g0 =>
    cases hb : (tableAt w.tables i).bufs[id]? with
    | none => simp [ha, hb] at hg
    | some b =>
      simp only [ha, hb, Option.some.injEq] at hg
      subst hg
      simp only at hk
      simp only [ha, hb, hk] at hgp
      split at hgp
      · cases hgp
      · split at hgp <;> cases hgp <;> exact Nat.le_refl _

/-- The same for a value a filter computed. -/
theorem C120_filtered_snapshot (pg : Nat) (srt : List Spec → List Spec) (before after : List MOp)
    (w w1 w2 : World) (h : World.run pg srt before = Res.ok w) (f : Filter) (src : HGrid)
    (cls unf : GoMap Attr Bool) (s : Spec) (row : Nat) (hs : Grid.flag unf s.attr = false)
    (h1 : w.step pg srt (.get (.filt f src cls unf) s row) = Res.ok w1)
    (h2 : World.runFrom pg srt w1 after = Res.ok w2)
    (hno : ∀ x, MOp.poke w.held.length x ∉ after) :
    w2.shows w.held.length = w1.shows w.held.length := by
  have I := run_inv_world pg srt before h
  have E := step_effect pg srt I _ h1
  simp only [World.step, Res.map_eq_ok] at h1
  obtain ⟨p, hgp, rfl⟩ := h1
  refine snapshot pg srt I rfl E.inv ?_ after h2 hno
  simp only [HGrid.get] at hgp
  split at hgp
  · simp only [Res.bind_eq_ok, hs, Bool.false_eq_true, if_false, Res.map_eq_ok] at hgp
    obtain ⟨q, hq, x, _, rfl⟩ := hgp
    obtain ⟨_, _, R⟩ := (HGrid.get_sim src I.ok _ row).ok_left hq
    exact R.grow.le
  · cases hgp

namespace C120

def a : Attr := ⟨0, .float "a" 2⟩
def b : Attr := ⟨1, .bin "b"⟩
def sa : Spec := ⟨some 0, 0, a⟩
def sb : Spec := ⟨some 1, 0, b⟩
/-- Two rows, a float and a binary attribute; the client holds one slice of its own. -/
def start : List MOp :=
  [.new, .build 0 (.add a), .build 0 (.add b), .extend 0 2, .make (packU64 5), .make [1#8],
   .set 0 sa 1 0]

end C120

open C120 in
/-- The full claim fails: the client reads a float cell, then writes another value to the cell with
`Set`, and the value it read has changed. -/
theorem C120_not_a_snapshot : ∃ w w1 w2, World.run 4096 id start = Res.ok w ∧
    w.step 4096 id (.get (.table 0) sa 0) = Res.ok w1 ∧ w1.shows 2 = some (packU64 0) ∧
    World.runFrom 4096 id w1 [.set 0 sa 0 0] = Res.ok w2 ∧ w2.shows 2 = some (packU64 5) := by
  refine ⟨_, _, _, rfl, rfl, ?_, rfl, ?_⟩ <;> decide +kernel

open C120 in
/-- The cases of the theorems above occur: a live window into a float cell that a later `Set` changes,
through a view too; the snapshot of a binary cell; a window cut off by `Extend`. -/
example : ∃ w w1 w2 w3, World.run 4096 id start = Res.ok w ∧ w.wholeBytes 0 sa ∧ w.bits 0 sb ∧
    World.runFrom 4096 id w [.get (.table 0) sa 0, .get (.table 0) sb 0,
      .get (.view (.table 0) none (some [(0, 1), (1, 0)]) [] true) sa 1] = Res.ok w1 ∧
    World.runFrom 4096 id w1 [.set 0 sa 0 0, .set 0 sb 0 1] = Res.ok w2 ∧
    World.runFrom 4096 id w2 [.extend 0 1, .swap 0 0 2] = Res.ok w3 ∧
    [2, 3, 4].map w1.shows = [some (packU64 0), some [0#8], some (packU64 0)] ∧
    [2, 3, 4].map w2.shows = [some (packU64 5), some [0#8], some (packU64 5)] ∧
    [2, 3, 4].map w3.shows = [some (packU64 5), some [0#8], some (packU64 5)] ∧
    (w3.table 0).get sa 0 = Res.ok (packU64 0) := by
  refine ⟨_, _, _, _, rfl, ⟨0, _, 8, rfl, rfl, rfl⟩, ⟨1, _, rfl, rfl, rfl⟩, rfl, rfl, rfl, ?_, ?_, ?_, ?_⟩ <;>
    decide +kernel

end Golearn
