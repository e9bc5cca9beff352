import Verif.Proofs.KnnSearch

/-! # Filling a prediction vector row by row -/

namespace Golearn

/-- A loop over rows that stores one class for each row. -/
theorem predict_loop {fo : FloatOps} {parse : String → Option U64} {n p : Nat} {nm : String}
    {vals : Nat → Res (List Bytes)} {row : Nat → List Bytes} {cb : Dense → List Bytes → Nat → Res (Dense × Ctl)}
    {Q : Nat → String → Prop} (hvals : ∀ r, r < n → vals r = Res.ok (row r))
    (hcb : ∀ r, r < n → ∃ c, Q r c ∧ ∀ d, cb d (row r) r = (setClass fo parse d r c).map fun d' => (d', Ctl.cont))
    (order done : List Nat) (hlt : ∀ r ∈ order, r < n) (hnd : order.Nodup) (hdis : ∀ r ∈ done, r ∉ order)
    (hdl : ∀ r ∈ done, r < n) (d : Dense) (vs : List String)
    (hv : PredVec d n ⟨p, .cat nm vs⟩) (hb : vs.length + order.length ≤ 2 ^ 64)
    (hdone : ∀ r ∈ done, ∃ c, Q r c ∧ getClass fo (.dense d) r = Res.ok c) :
    ∃ d' vs', mapOver vals cb d order = Res.ok (d', false) ∧ PredVec d' n ⟨p, .cat nm vs'⟩ ∧
      ∀ r, r ∈ done ∨ r ∈ order → ∃ c, Q r c ∧ getClass fo (.dense d') r = Res.ok c := by
  induction order generalizing d vs done with
  | nil => exact ⟨d, vs, rfl, hv, fun r hr => hdone r (by simpa using hr)⟩
  | cons r rs ih =>
    have hr := hlt r List.mem_cons_self
    obtain ⟨c, q1, q2⟩ := hcb r hr
    rw [List.length_cons] at hb
    obtain ⟨d', vs', g1, g2, _, g4, _, g6, g7⟩ := hv.setClass (fo := fo) (parse := parse) hr (by omega) c
    obtain ⟨d2, vs2, h1, h2, h3⟩ := ih (r :: done) (fun x hx => hlt x (List.mem_cons_of_mem _ hx))
      (List.nodup_cons.1 hnd).2
      (by
        intro x hx
        rcases List.mem_cons.1 hx with rfl | hx
        · exact (List.nodup_cons.1 hnd).1
        · exact fun h => hdis x hx (List.mem_cons_of_mem _ h))
      (by
        intro x hx
        rcases List.mem_cons.1 hx with rfl | hx
        · exact hr
        · exact hdl x hx)
      d' vs' g2 (by omega)
      (by
        intro x hx
        rcases List.mem_cons.1 hx with rfl | hx
        · exact ⟨c, q1, g6⟩
        · obtain ⟨c', k1, k2⟩ := hdone x hx
          refine ⟨c', k1, g7 x (hdl x hx) ?_ c' k2⟩
          intro he
          exact hdis x hx (he ▸ List.mem_cons_self))
    refine ⟨d2, vs2, ?_, h2, ?_⟩
    · simp only [mapOver, hvals r hr, Res.bind_ok, q2 d, g1, Res.map_ok, h1]
    · intro x hx
      apply h3
      rcases hx with hx | hx
      · exact Or.inl (List.mem_cons_of_mem _ hx)
      · rcases List.mem_cons.1 hx with rfl | hx
        · exact Or.inl List.mem_cons_self
        · exact Or.inr hx

/-- The loop over all rows of a grid, from a fresh prediction vector. -/
theorem predict_grid {fo : FloatOps} {parse : String → Option U64} {n p : Nat} {nm : String} {vs : List String}
    {g : Grid} {specs : List Spec} (P : g.Presents n)
    (hs : ∀ s ∈ specs, ∃ a ∈ g.allAttributes, g.getAttribute a = Res.ok s)
    {cb : Dense → List Bytes → Nat → Res (Dense × Ctl)} {Q : Nat → String → Prop}
    (hcb : ∀ r, r < n → ∃ c, Q r c ∧ ∀ d, cb d (specs.map fun s => g.cell s.attr r) r =
      (setClass fo parse d r c).map fun d' => (d', Ctl.cont))
    {order : List Nat} (ho : g.RowOrder order) {d : Dense} (hv : PredVec d n ⟨p, .cat nm vs⟩)
    (hb : vs.length + n ≤ 2 ^ 64) :
    ∃ d' vs', g.mapOverRows specs order cb d = Res.ok (d', false) ∧ PredVec d' n ⟨p, .cat nm vs'⟩ ∧
      ∀ r, r < n → ∃ c, Q r c ∧ getClass fo (.dense d') r = Res.ok c := by
  obtain ⟨i1, i2⟩ := P.iter specs hs
  have hp := P.order order ho
  have hl : order.length = n := by rw [hp.length_eq, List.length_range]
  obtain ⟨d', vs', h1, h2, h3⟩ := predict_loop (vals := g.rowVals specs) i2 hcb order []
    (fun r hr => List.mem_range.1 (hp.mem_iff.1 hr)) (hp.nodup_iff.2 List.nodup_range) (by simp) (by simp) d vs hv
    (by omega) (by simp)
  refine ⟨d', vs', ?_, h2, fun r hr => h3 r (Or.inr (hp.mem_iff.2 (List.mem_range.2 hr)))⟩
  simp only [Grid.mapOverRows, i1, Res.bind_ok, h1]

end Golearn
