import Verif.Props.C64

/-! # C65: bagging predicts a majority class -/

namespace Golearn

section
variable {fo : FloatOps} {parse : String → Option U64}

/-- The loop over the rows with votes. -/
theorem consensus_loop {ords : Nat → List String → List String} (hords : ∀ i l, (ords i l).Perm l)
    {m : GoMap Nat (GoMap String Nat)} {n p : Nat} {nm : String} {labels : Nat → List String}
    (hm : ∀ r, r < n → ∃ ls, CountsL ((m.get? r).getD []) ls ∧ ls.Perm (labels r)) (hne : ∀ r, r < n → labels r ≠ [])
    (order done : List Nat) (hlt : ∀ r ∈ order, r < n) (hnd : order.Nodup) (hdis : ∀ r ∈ done, r ∉ order)
    (hdl : ∀ r ∈ done, r < n) (d : Dense) (vs : List String) (hv : PredVec d n ⟨p, .cat nm vs⟩)
    (hb : vs.length + order.length ≤ 2 ^ 64)
    (hdone : ∀ r ∈ done, ∃ c, Majority (labels r) c ∧ getClass fo (.dense d) r = Res.ok c) :
    ∃ d' vs', consensusLoop fo parse ords m order d = Res.ok d' ∧ PredVec d' n ⟨p, .cat nm vs'⟩ ∧
      ∀ r, r ∈ done ∨ r ∈ order → ∃ c, Majority (labels r) c ∧ getClass fo (.dense d') r = Res.ok c := by
  induction order generalizing d vs done with
  | nil => exact ⟨d, vs, rfl, hv, fun r hr => hdone r (by simpa using hr)⟩
  | cons r rs ih =>
    have hr := hlt r List.mem_cons_self
    rw [List.length_cons] at hb
    obtain ⟨ls, hl, hp⟩ := hm r hr
    set row := (m.get? r).getD [] with hrow
    have hkeys : ∀ c, c ∈ ords r (row.map Prod.fst) ↔ c ∈ ls := by
      intro c
      rw [(hords r _).mem_iff, ← GoMap.isSome_iff_mem, hl.2 c]
      by_cases h : c ∈ ls
      · simp [h]
      · simp [h]
    have hval : ∀ c, (row.get? c).getD 0 = ls.count c := by
      intro c
      rw [hl.2 c]
      by_cases h : c ∈ ls
      · rw [if_pos h]; rfl
      · rw [if_neg h, List.count_eq_zero.2 h]; rfl
    have hls : ls ≠ [] := by
      intro e
      rw [e] at hp
      exact hne r hr hp.symm.eq_nil
    obtain ⟨x, hx⟩ := List.exists_mem_of_ne_nil _ hls
    have hmax := argmaxLoop_max (fun c => (row.get? c).getD 0) (ords r (row.map Prod.fst)) ("", 0)
      (List.ne_nil_of_mem ((hkeys x).2 hx))
      (by
        intro a ha
        simp only [hval]
        exact List.count_pos_iff.2 ((hkeys a).1 ha))
    set win := (argmaxLoop (fun c => (row.get? c).getD 0) (ords r (row.map Prod.fst)) ("", 0)).1 with hwin
    have hmaj : Majority (labels r) win := by
      refine ⟨hp.mem_iff.1 ((hkeys win).1 hmax.1), ?_⟩
      intro c'
      rw [← hp.count_eq, ← hp.count_eq]
      by_cases h : c' ∈ ls
      · have := hmax.2 c' ((hkeys c').2 h)
        simp only [hval] at this
        exact this
      · rw [List.count_eq_zero.2 h]; exact Nat.zero_le _
    obtain ⟨d', vs', g1, g2, _, g4, _, g6, g7⟩ := hv.setClass (fo := fo) (parse := parse) hr (by omega) win
    obtain ⟨d2, vs2, h1, h2, h3⟩ := ih (r :: done) (fun x hx => hlt x (List.mem_cons_of_mem _ hx))
      (List.nodup_cons.1 hnd).2
      (by
        intro x hx
        rcases List.mem_cons.1 hx with rfl | hx
        · exact (List.nodup_cons.1 hnd).1
        · exact fun h => hdis x hx (List.mem_cons_of_mem _ h))
      (by
        intro x hx
        rcases List.mem_cons.1 hx with rfl | hx
        · exact hr
        · exact hdl x hx)
      d' vs' g2 (by omega)
      (by
        intro x hx
        rcases List.mem_cons.1 hx with rfl | hx
        · exact ⟨win, hmaj, g6⟩
        · obtain ⟨c', k1, k2⟩ := hdone x hx
          refine ⟨c', k1, g7 x (hdl x hx) ?_ c' k2⟩
          intro he
          exact hdis x hx (he ▸ List.mem_cons_self))
    refine ⟨d2, vs2, ?_, h2, ?_⟩
    · simp only [consensusLoop, ← hrow, ← hwin, g1, Res.bind_ok, h1]
    · intro x hx
      apply h3
      rcases hx with hx | hx
      · exact Or.inl (List.mem_cons_of_mem _ hx)
      · rcases List.mem_cons.1 hx with rfl | hx
        · exact Or.inl List.mem_cons_self
        · exact Or.inr hx

/-- For data with one categorical class attribute and at least one model, whatever the schedule and the orders of
iteration over the maps, `Predict` returns one row for each row of the data, with a class that no other class beats in
the number of models predicting it. -/
theorem C65_majority {b : Bagged} {srt : List Spec → List Spec} {g : Grid} {n pg q : Nat} {nm : String}
    {vs : List String} {lab : Nat → Nat → String} (H : b.Predicts fo srt g n lab) (hsrt : ∀ l, (srt l).Perm l)
    (hrows : g.size.2 = n) (hcls : g.allClassAttributes = [⟨q, .cat nm vs⟩]) (hroom : vs.length + n ≤ 2 ^ 64)
    (hm : 0 < b.classifiers.length) {cpus : Nat} (hc : 0 < cpus)
    {ord : Nat → Grid → List Nat} (hord : ∀ j (v : Grid), v.RowOrder (ord j v))
    {ordRows : List Nat → List Nat} (hordRows : ∀ l, (ordRows l).Perm l)
    {ords : Nat → List String → List String} (hords : ∀ i l, (ords i l).Perm l) {sched : List Thread}
    {s : PipeState Grid (GoMap Nat (GoMap String Nat))}
    (h : (b.pipeline fo srt cpus ord g).Reaches [] sched s) (hd : s.pos = .done) :
    ∃ d, Bagged.consensus fo parse pg ordRows ords g s.tally = Res.ok d ∧ (Grid.dense d).size.2 = n ∧
      ∀ r, r < n → ∃ c, getClass fo (.dense d) r = Res.ok c ∧
        (∃ i, i < b.classifiers.length ∧ lab i r = c) ∧
        ∀ c', votesFor b.classifiers.length lab r c' ≤ votesFor b.classifiers.length lab r c := by
  obtain ⟨t1, t2, t3⟩ := tally_done H hsrt hc hord h hd
  obtain ⟨ret, hret, hpv, _⟩ := generate_spec pg hrows hcls
  have hperm := hordRows (s.tally.map Prod.fst)
  have hmem : ∀ r, r ∈ ordRows (s.tally.map Prod.fst) ↔ r < n := by
    intro r
    rw [hperm.mem_iff, t2]
    exact ⟨fun h => h.1, fun h => ⟨h, hm⟩⟩
  have hnd : (ordRows (s.tally.map Prod.fst)).Nodup := hperm.nodup_iff.2 t1
  have hlen : (ordRows (s.tally.map Prod.fst)).length = n := by
    have : (ordRows (s.tally.map Prod.fst)).Perm (List.range n) :=
      (List.perm_ext_iff_of_nodup hnd List.nodup_range).2 fun r => by rw [hmem, List.mem_range]
    rw [this.length_eq, List.length_range]
  obtain ⟨d, vs', c1, c2, c3⟩ := consensus_loop (fo := fo) (parse := parse) hords t3
    (fun r _ => by
      intro e
      have := congrArg List.length e
      rw [List.length_map, List.length_range, List.length_nil] at this
      omega)
    (ordRows (s.tally.map Prod.fst)) [] (fun r hr => (hmem r).1 hr) hnd (by simp) (by simp) ret vs hpv (by omega) (by simp)
  refine ⟨d, ?_, ?_, ?_⟩
  · simp only [Bagged.consensus, hret, Res.bind_ok, c1]
  · show d.size.2 = n
    simp only [Dense.size, c2.rows]
  · intro r hr
    obtain ⟨c, ⟨m1, m2⟩, m3⟩ := c3 r (Or.inr ((hmem r).2 hr))
    refine ⟨c, m3, ?_, ?_⟩
    · obtain ⟨i, hi, e⟩ := List.mem_map.1 m1
      exact ⟨i, List.mem_range.1 hi, e⟩
    · intro c'
      have e : ∀ x, votesFor b.classifiers.length lab r x = ((List.range b.classifiers.length).map fun i => lab i r).count x := by
        intro x
        rw [votesFor, List.count, List.countP_map, List.countP_eq_length_filter]
        rfl
      rw [e, e]
      exact m2 c'

/-- Without models nothing is counted and the prediction is the empty vector: no class has been set. -/
theorem C65_no_models {b : Bagged} {srt : List Spec → List Spec} {g : Grid} {n pg : Nat}
    {lab : Nat → Nat → String} (H : b.Predicts fo srt g n lab) (hsrt : ∀ l, (srt l).Perm l)
    (hm : b.classifiers = []) {cpus : Nat} (hc : 0 < cpus)
    {ord : Nat → Grid → List Nat} (hord : ∀ j (v : Grid), v.RowOrder (ord j v))
    {ordRows : List Nat → List Nat} (hordRows : ∀ l, (ordRows l).Perm l)
    {ords : Nat → List String → List String} {sched : List Thread}
    {s : PipeState Grid (GoMap Nat (GoMap String Nat))}
    (h : (b.pipeline fo srt cpus ord g).Reaches [] sched s) (hd : s.pos = .done) :
    Bagged.consensus fo parse pg ordRows ords g s.tally = generatePredictionVector pg g := by
  obtain ⟨t1, t2, t3⟩ := tally_done H hsrt hc hord h hd
  have : ordRows (s.tally.map Prod.fst) = [] := by
    rw [List.eq_nil_iff_forall_not_mem]
    intro r hr
    have := (t2 r).1 ((hordRows _).mem_iff.1 hr)
    rw [hm] at this
    simp at this
  simp only [Bagged.consensus, this, consensusLoop]
  cases generatePredictionVector pg g <;> rfl

end

section Examples
/-- Three models vote on one row: two of them win. -/
example : votesFor 3 (fun i _ => if i = 1 then "y" else "x") 0 "x" = 2 ∧
    votesFor 3 (fun i _ => if i = 1 then "y" else "x") 0 "y" = 1 := by decide +kernel
/-- Two models predicting two rows of data with a categorical class, as the theorem requires. -/
example : ∃ (b : Bagged) (g : Grid), g.size.2 = 2 ∧ g.allClassAttributes = [⟨1, .cat "c" ["x", "y"]⟩] ∧
    b.classifiers.length = 2 ∧
    b.Predicts ⟨fun _ _ => "", fun _ _ => false⟩ id g 2 (fun _ r => if r = 1 then "y" else "x") := bag_example
end Examples

end Golearn
