import Verif.Proofs.Csv
import Verif.Props.C34

/-! # Filling a grid from the records of a file -/

namespace Golearn

/-- `csvBuild` on a grid that has the columns of the file. -/
theorem csvBuild_spec (co : CsvOps) (srt : List Spec → List Spec) {n : Nat} {d0 : Dense} (D0 : DenseOK n d0) (env0 : ValEnv) (cols : List Attr)
    (hin : ∀ a ∈ cols, a ∈ d0.allAttributes) (hnd : cols.Nodup) (rows : List (List String)) (hn : rows.length ≤ n)
    (hwide : ∀ r ∈ rows, r.length = cols.length)
    (hst : ∀ (i j : Nat) (a : Attr) (v : String), cols[j]? = some a → field rows i j = some v → Storable co a v)
    (hsrt : ∀ l : List Spec, l.length = cols.length → srt l = l) (hh : Bool) (records : List (List String))
    (htail : (if hh then records.tail else records) = rows) :
    ∃ d1 env, csvBuild co srt d0 env0 cols hh records = Res.ok (d1, env) ∧ DenseOK n d1 ∧ d1.allAttributes = d0.allAttributes ∧
      d1.classAttrs = d0.classAttrs ∧ EnvGrows env0 env (rows.length * cols.length) ∧
      (∀ p x, x ∈ env p → x ∈ env0 p ∨ ∃ (i j : Nat) (a : Attr) (v : String), cols[j]? = some a ∧ field rows i j = some v ∧ a.ptr = p ∧ v ≠ "" ∧
        x = co.trim v) ∧
      (∀ (i j : Nat) (a : Attr) (v : String), cols[j]? = some a → field rows i j = some v →
        if v = "" then (Grid.dense d1).cell a i = (Grid.dense d0).cell a i else Stored co env a v ((Grid.dense d1).cell a i)) ∧
      (∀ b ∈ d0.allAttributes, ∀ r, r < n → rows.length ≤ r ∨ b ∉ cols → (Grid.dense d1).cell b r = (Grid.dense d0).cell b r) := by
  obtain ⟨specs, es, ms, ws⟩ := resolve_spec D0 srt cols hin hsrt
  have hsl : specs.length = cols.length := by
    have := congrArg List.length ms
    rwa [List.length_map] at this
  have hspec : ∀ j : Nat, specs[j]?.map Spec.attr = cols[j]? := by
    intro j; rw [← ms, List.getElem?_map]
  have hzip : ∀ r : List String, ∀ q ∈ specs.zip r, ∃ j : Nat, cols[j]? = some q.1.attr ∧ r[j]? = some q.2 := by
    intro r q hq
    obtain ⟨j, hj⟩ := List.mem_iff_getElem?.1 hq
    rw [List.getElem?_zip_eq_some] at hj
    exact ⟨j, by rw [← hspec, hj.1]; rfl, hj.2⟩
  have hzip' : ∀ (r : List String) (j : Nat) (a : Attr) (v : String), cols[j]? = some a → r[j]? = some v → ∃ s, s.attr = a ∧ (s, v) ∈ specs.zip r := by
    intro r j a v h1 h2
    rw [← hspec, Option.map_eq_some_iff] at h1
    obtain ⟨s, h3, h4⟩ := h1
    exact ⟨s, h4, List.mem_iff_getElem?.2 ⟨j, List.getElem?_zip_eq_some.2 ⟨h3, h2⟩⟩⟩
  have hstor : ∀ r ∈ rows, r.length = specs.length ∧ ∀ p ∈ specs.zip r, Storable co p.1.attr p.2 := by
    intro r hr
    refine ⟨by rw [hwide r hr, hsl], ?_⟩
    intro p hp
    obtain ⟨j, h1, h2⟩ := hzip r p hp
    obtain ⟨i, hi⟩ := List.mem_iff_getElem?.1 hr
    exact hst i j _ _ h1 (by simp [field, hi, h2])
  obtain ⟨d1, env, e1, D1, A1, C1, L1, G1, V1, S1, U1⟩ := csvRecords_spec co specs (by rw [ms]; exact hnd) rows 0 d0 env0 (by omega) D0 ws hstor
  rw [hsl] at G1
  refine ⟨d1, env, ?_, D1, A1, C1, G1, ?_, ?_, ?_⟩
  · unfold csvBuild
    rw [es]
    simp only [htail, e1]
  · intro p x hx
    rcases V1 p x hx with h | ⟨r, hr, q, hq, hq1, hq2, hq3⟩
    · exact Or.inl h
    · obtain ⟨j, h2, h3⟩ := hzip r q hq
      obtain ⟨i, hi⟩ := List.mem_iff_getElem?.1 hr
      exact Or.inr ⟨i, j, _, _, h2, by simp [field, hi, h3], hq1, hq2, hq3⟩
  · intro i j a v hj hf
    obtain ⟨hi, h3⟩ : ∃ h : i < rows.length, rows[i][j]? = some v := by
      unfold field at hf
      rw [Option.bind_eq_some_iff] at hf
      obtain ⟨r, h1, h2⟩ := hf
      obtain ⟨h3, h4⟩ := List.getElem?_eq_some_iff.1 h1
      exact ⟨h3, by rw [h4]; exact h2⟩
    obtain ⟨s, hs1, hs2⟩ := hzip' rows[i] j a v hj h3
    have := S1 i hi (s, v) hs2
    simpa only [Nat.zero_add, hs1] using this
  · intro b hb r hr h
    refine U1 b hb r hr ?_
    rcases h with h | h
    · exact Or.inr (Or.inl (by omega))
    · exact Or.inr (Or.inr (by rw [ms]; exact h))

end Golearn
