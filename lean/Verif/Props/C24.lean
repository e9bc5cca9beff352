import Verif.Proofs.Instances

/-! # C24: categorical and binary-float class distributions

The English claim (number of rows per class value) is false: both row callbacks return `false`, which
stops the iteration after the first row (base/util_instances.go:149 and 180). -/

namespace Golearn

theorem mapOver_first {σ : Type} (vals : Nat → Res (List Bytes)) (w : List Bytes)
    (cb : σ → List Bytes → Nat → Res (σ × Ctl)) (s s' : σ) (r : Nat) (rs : List Nat)
    (hv : vals r = Res.ok w) (hcb : cb s w r = Res.ok (s', Ctl.stop)) :
    mapOver vals cb s (r :: rs) = Res.ok (s', false) := by
  simp [mapOver, hv, hcb]

theorem resolve_single {g : Grid} {a : Attr} {s : Spec} {srt : List Spec → List Spec}
    (hsrt : ∀ l, (srt l).Perm l) (hs : g.getAttribute a = Res.ok s) :
    g.resolve srt [a] = Res.ok [s] := by
  have : g.resolveUnsorted [a] = Res.ok [s] := by
    simp [Grid.resolveUnsorted, mapRes, hs]
  simp only [Grid.resolve, this, Res.map_ok, List.perm_singleton.1 (hsrt [s])]

/-- What `GetClassDistributionByCategoricalValue` returns on any table of at least one row with one
categorical class attribute: the count of the first row visited only — one for its value, zero for
every other. -/
theorem C24_categorical_partial (g : Grid) (n : Nat) (P : g.Presents n) (srt : List Spec → List Spec)
    (hsrt : ∀ l, (srt l).Perm l) (a : Attr) (name : String) (vs : List String)
    (hb : a.body = .cat name vs) (hc : g.allClassAttributes = [a]) (ha : a ∈ g.allAttributes)
    (code : Nat → U64) (hcode : ∀ r, r < n → unpackU64 (g.cell a r) = Res.ok (code r) ∧
      (code r).toNat < vs.length)
    (order : List Nat) (ho : g.RowOrder order) (hn : 0 < n) :
    ∃ r, r < n ∧ order.head? = some r ∧
      catDist srt g order = Res.ok ((List.replicate vs.length 0).set (code r).toNat 1) := by
  have hp := P.order order ho
  cases order with
  | nil => have := hp.length_eq; simp at this; omega
  | cons r rs =>
    have hr : r < n := List.mem_range.1 (hp.subset (by simp))
    refine ⟨r, hr, rfl, ?_⟩
    obtain ⟨s, hs, hsa, _⟩ := P.read a ha
    obtain ⟨i1, i2⟩ := P.iter [s] (by
      intro t ht; simp only [List.mem_singleton] at ht; subst ht; exact ⟨a, ha, hs⟩)
    have hv := i2 r hr
    simp only [List.map_cons, List.map_nil, hsa] at hv
    obtain ⟨c1, c2⟩ := hcode r hr
    have hcb : catDistCallback (List.replicate vs.length 0) [g.cell a r] r =
        Res.ok ((List.replicate vs.length 0).set (code r).toNat 1, Ctl.stop) := by
      simp [catDistCallback, c1, c2]
    simp only [catDist, hc, hb, resolve_single hsrt hs, Res.bind_ok, Grid.mapOverRows, i1,
      mapOver_first _ _ _ _ _ r rs hv hcb]

/-- Hence the counts never add up to the number of rows once there are two: they add up to one. -/
theorem C24_categorical_fails (g : Grid) (n : Nat) (P : g.Presents n) (srt : List Spec → List Spec)
    (hsrt : ∀ l, (srt l).Perm l) (a : Attr) (name : String) (vs : List String)
    (hb : a.body = .cat name vs) (hc : g.allClassAttributes = [a]) (ha : a ∈ g.allAttributes)
    (code : Nat → U64) (hcode : ∀ r, r < n → unpackU64 (g.cell a r) = Res.ok (code r) ∧
      (code r).toNat < vs.length)
    (order : List Nat) (ho : g.RowOrder order) (hn : 2 ≤ n) :
    ∃ l, catDist srt g order = Res.ok l ∧ l.sum = 1 ∧ l.sum ≠ n := by
  obtain ⟨r, hr, _, e⟩ := C24_categorical_partial g n P srt hsrt a name vs hb hc ha code hcode order
    ho (by omega)
  have hsum : ∀ (m i : Nat), i < m → ((List.replicate m 0).set i 1).sum = 1 := by
    intro m
    induction m with
    | zero => intro i h; omega
    | succ m ih =>
      intro i h
      cases i with
      | zero => simp [List.replicate_succ]
      | succ i => simpa [List.replicate_succ] using ih i (by omega)
  have := hsum vs.length (code r).toNat (hcode r hr).2
  exact ⟨_, e, this, by omega⟩

/-- What `GetClassDistributionByBinaryFloatValue` returns on any table of at least one row with one
float class attribute: one count, for the first row visited. -/
theorem C24_binary_float_partial (fo : FloatOps) (half : U64) (g : Grid) (n : Nat) (P : g.Presents n)
    (srt : List Spec → List Spec) (hsrt : ∀ l, (srt l).Perm l) (a : Attr) (hf : a.isFloat = true)
    (hc : g.allClassAttributes = [a]) (ha : a ∈ g.allAttributes) (x : Nat → U64)
    (hx : ∀ r, r < n → unpackFloatBits (g.cell a r) = Res.ok (x r))
    (order : List Nat) (ho : g.RowOrder order) (hn : 0 < n) :
    ∃ r, r < n ∧ order.head? = some r ∧
      binFloatDist fo half srt g order = Res.ok (if fo.gt (x r) half then (0, 1) else (1, 0)) := by
  have hp := P.order order ho
  cases order with
  | nil => have := hp.length_eq; simp at this; omega
  | cons r rs =>
    have hr : r < n := List.mem_range.1 (hp.subset (by simp))
    refine ⟨r, hr, rfl, ?_⟩
    obtain ⟨s, hs, hsa, _⟩ := P.read a ha
    obtain ⟨i1, i2⟩ := P.iter [s] (by
      intro t ht; simp only [List.mem_singleton] at ht; subst ht; exact ⟨a, ha, hs⟩)
    have hv := i2 r hr
    simp only [List.map_cons, List.map_nil, hsa] at hv
    have hcb : binFloatDistCallback fo half (0, 0) [g.cell a r] r =
        Res.ok (if fo.gt (x r) half then (0, 1) else (1, 0), Ctl.stop) := by
      simp only [binFloatDistCallback, hx r hr, Res.map_ok, Nat.zero_add]
    simp only [binFloatDist, hc, hf, if_true, resolve_single hsrt hs, Res.bind_ok, Grid.mapOverRows, i1,
      mapOver_first _ _ _ _ _ r rs hv hcb]

section Examples
private def fo0 : FloatOps := ⟨fun _ _ => "", fun u v => v.toNat < u.toNat⟩
private def aC : Attr := ⟨0, .cat "c" ["x", "y"]⟩
private def aF : Attr := ⟨1, .float "f" 2⟩
/-- Three rows labelled x, y, x: the function reports one x and no y. -/
example : ((run 4096 [.add aC, .addClass aC, .extend 3, .set 0 1 (packU64 1)]).bind fun st =>
      (catDist id (.dense st.d) (List.range 3)).map fun l =>
        (decide ((Grid.dense st.d).allClassAttributes = [aC]), l)) =
    Res.ok (true, [1, 0]) := by decide +kernel
/-- Three rows 0, 1, 1 (bit patterns; half is 0 here): one row counted. -/
example : ((run 4096 [.add aF, .addClass aF, .extend 3, .set 0 1 (packU64 1),
      .set 0 2 (packU64 1)]).bind fun st =>
      (binFloatDist fo0 0 id (.dense st.d) (List.range 3)).map fun l => l) =
    Res.ok (1, 0) := by decide +kernel
end Examples

end Golearn
