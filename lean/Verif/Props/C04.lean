import Verif.Proofs.History
import Verif.Model.Predict

/-! # C04: binary attributes store exactly one bit -/

namespace Golearn

/-- After any history of `AddAttribute`, `Extend` and `Set` calls, reading a cell of a binary
attribute gives `{1}` if the last value written to that cell starts with a positive byte and `{0}`
otherwise (also when nothing was written). -/
theorem C04_binary_reads_last_bit (pg : Nat) (ops : List Op) (st : St)
    (hb : ∀ op ∈ ops, basicOp op = true) (hrun : run pg ops = Res.ok st)
    (h : Nat) (a : Attr) (ha : (addedAttrs ops)[h]? = some a) (h1 : a.isBin = true)
    (r : Nat) (hr : r < totalRows ops) :
    ∃ s, st.handles[h]? = some s ∧ s.attr = a ∧
      (∀ b t, lastWrite ops h r = some (b :: t) → 0 < b.toNat → st.d.get s r = Res.ok [1#8]) ∧
      ((∀ b t, lastWrite ops h r = some (b :: t) → b = 0#8) → st.d.get s r = Res.ok [0#8]) := by
  obtain ⟨B, hl⟩ := run_basic pg ops st hb hrun
  obtain ⟨I, _, _⟩ := run_inv pg ops st (basic_noLate hb) hrun
  rw [← hl, List.getElem?_map, Option.map_eq_some_iff] at ha
  obtain ⟨s, hs, hsa⟩ := ha
  refine ⟨s, hs, hsa, ?_⟩
  obtain ⟨k, hk, hget⟩ := I.cells h s r hs hr
  rw [B.stored h s hs, hsa] at hk
  simp only [defaultKind, h1, if_true, Option.some.injEq] at hk
  subst hk
  rw [hget]
  cases hw : lastWrite ops h r with
  | none => simp [cellValue]
  | some v =>
    cases v with
    | nil => simp [cellValue]
    | cons b t =>
      simp only [cellValue, Option.some.injEq, List.cons.injEq]
      refine ⟨?_, ?_⟩
      · rintro b' t' ⟨rfl, _⟩ hp
        rw [if_pos hp]
      · intro hz
        have := hz b t ⟨rfl, rfl⟩
        subst this
        simp

/-- As text: a value that is made from a string, stored, read and turned into a string again is "1" if the string is that of a number
greater than 0, and "0" if it is that of any other number. `parse` is `strconv.ParseFloat`; the comparison is `fo.gt`. -/
theorem C04_text (fo : FloatOps) (parse : String → Option U64) (pg : Nat) (ops : List Op) (st : St)
    (hb : ∀ op ∈ ops, basicOp op = true) (hrun : run pg ops = Res.ok st)
    (h : Nat) (a : Attr) (ha : (addedAttrs ops)[h]? = some a) (h1 : a.isBin = true)
    (r : Nat) (hr : r < totalRows ops) (text : String) (u : U64) (hu : parse text = some u) (v : Bytes)
    (hv : (a.fromString fo parse text).map Prod.fst = Res.ok v) (hw : lastWrite ops h r = some v) :
    ∃ s, st.handles[h]? = some s ∧ s.attr = a ∧
      ((st.d.get s r).bind fun b => a.getString fo b) = Res.ok (if fo.gt u 0#64 then "1" else "0") := by
  obtain ⟨s, e1, e2, e3, e4⟩ := C04_binary_reads_last_bit pg ops st hb hrun h a ha h1 r hr
  refine ⟨s, e1, e2, ?_⟩
  obtain ⟨p, b⟩ := a
  cases b with
  | float _ _ => cases h1
  | cat _ _ => cases h1
  | bin nm =>
    simp only [Attr.fromString, hu, Res.map_ok, Res.ok.injEq] at hv
    subst hv
    by_cases hg : fo.gt u 0#64 = true
    · rw [if_pos hg] at hw ⊢
      rw [e3 1#8 [] hw (by decide), Res.bind_ok]
      rfl
    · rw [if_neg hg] at hw ⊢
      rw [e4 (by rw [hw]; simp), Res.bind_ok]
      rfl

/-- Storage view: writing bit `col` of a row of a one-bit group changes at most that bit. Every
other byte of the storage, and every other bit of the same byte, is unchanged. -/
theorem C04_other_bits_unchanged (g g' : Group) (col row : Nat) (v : Bytes)
    (hk : g.kind = .binary) (h : g.set col row v = Res.ok g') (i j : Nat) (hj : j < 8)
    (hne : (i, j) ≠ (row * ((g.attrs.length + 7) / 8) + col / 8, col % 8)) :
    (g'.alloc[i]?).map (fun b => b.getLsbD j) = (g.alloc[i]?).map (fun b => b.getLsbD j) := by
  have hoff : g.offset col row = row * ((g.attrs.length + 7) / 8) + col / 8 := by
    simp [Group.offset, Group.rowSize, hk]
  rw [← hoff] at hne
  simp only [Group.set, hk] at h
  cases v with
  | nil => cases h
  | cons v0 vs =>
    cases ha : g.alloc[g.offset col row]? with
    | none => simp [ha] at h
    | some b =>
      simp only [ha, Res.ok.injEq] at h
      subst h
      have hlt : g.offset col row < g.alloc.length := (List.getElem?_eq_some_iff.1 ha).1
      by_cases hi : g.offset col row = i
      · subst hi
        have hjj : col % 8 ≠ j := fun e => hne (by rw [e])
        have hm : col % 8 < 8 := Nat.mod_lt _ (by omega)
        rw [List.getElem?_set_self hlt, ha]
        simp only [Option.map_some, Option.some.injEq]
        by_cases hp : v0.toNat > 0
        · rw [if_pos hp, BitVec.getLsbD_or, getLsbD_bit _ _ hj hm]
          simp [hjj]
        · rw [if_neg hp, BitVec.getLsbD_and, BitVec.getLsbD_not, getLsbD_bit _ _ hj hm]
          simp [hjj, hj]
      · rw [List.getElem?_set_ne hi]

section Examples
/-- A binary column into which the value of the text "2" was written, with a comparison of numbers by their bit patterns. -/
example : let fo : FloatOps := ⟨fun _ _ => "", fun a b => decide (b.toNat < a.toNat)⟩
    let ops : List Op := [.add ⟨0, .bin "b"⟩, .extend 2, .set 0 1 [1#8]]
    (∀ op ∈ ops, basicOp op = true) ∧ (∃ st, run 4096 ops = Res.ok st) ∧
    ((⟨0, .bin "b"⟩ : Attr).fromString fo (fun _ => some 0x4000000000000000#64) "2").map Prod.fst = Res.ok [1#8] ∧
    lastWrite ops 0 1 = some [1#8] := by
  refine ⟨by decide, ⟨_, rfl⟩, by decide, by decide⟩

private def bn (n : Nat) (s : String) : Attr := ⟨n, .bin s⟩
private def ops1 : List Op :=
  [.add (bn 0 "a"), .add (bn 1 "b"), .extend 2, .set 1 1 [255#8], .set 0 1 [1#8], .set 0 1 [0#8]]
example : ∃ st, run 4096 ops1 = Res.ok st ∧ (∀ op ∈ ops1, basicOp op = true) ∧
    (addedAttrs ops1)[1]? = some (bn 1 "b") ∧ (bn 1 "b").isBin = true ∧
    lastWrite ops1 1 1 = some [255#8] ∧ lastWrite ops1 0 1 = some [0#8] ∧ 1 < totalRows ops1 := by
  refine ⟨_, rfl, ?_⟩
  decide +kernel
example : ∃ g', (⟨.binary, [bn 0 "a", bn 1 "b"], [2#8, 3#8]⟩ : Group).set 0 1 [0#8] = Res.ok g' ∧
    g'.alloc = [2#8, 2#8] := ⟨_, rfl, by decide⟩
end Examples

end Golearn
