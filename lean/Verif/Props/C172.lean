import Verif.Props.C65
import Verif.Proofs.TreeExamples

/-! # C172: an ensemble judges each row by the votes of its models -/

namespace Golearn

/-- One ensemble is used on two tables. A row `r` of the one and a row `r'` of the other for which every model predicts the same class get
classes with the same number of votes, whatever the other rows, the schedules of the goroutines, the numbers of processors and the orders of
maps in the two runs. If one class has more votes than every other one, both rows get it. -/
theorem C172_rows {fo : FloatOps} {parse : String → Option U64} {b : Bagged} {srt : List Spec → List Spec} {g g' : Grid}
    {n n' pg q q' : Nat} {nm nm' : String} {vs vs' : List String} {lab lab' : Nat → Nat → String}
    (H : b.Predicts fo srt g n lab) (H' : b.Predicts fo srt g' n' lab') (hsrt : ∀ l, (srt l).Perm l)
    (hrows : g.size.2 = n) (hrows' : g'.size.2 = n') (hcls : g.allClassAttributes = [⟨q, .cat nm vs⟩])
    (hcls' : g'.allClassAttributes = [⟨q', .cat nm' vs'⟩]) (hroom : vs.length + n ≤ 2 ^ 64) (hroom' : vs'.length + n' ≤ 2 ^ 64)
    (hm : 0 < b.classifiers.length) {cpus cpus' : Nat} (hc : 0 < cpus) (hc' : 0 < cpus')
    {ord ord' : Nat → Grid → List Nat} (hord : ∀ j (v : Grid), v.RowOrder (ord j v)) (hord' : ∀ j (v : Grid), v.RowOrder (ord' j v))
    {ordRows ordRows' : List Nat → List Nat} (hordRows : ∀ l, (ordRows l).Perm l) (hordRows' : ∀ l, (ordRows' l).Perm l)
    {ords ords' : Nat → List String → List String} (hords : ∀ i l, (ords i l).Perm l) (hords' : ∀ i l, (ords' i l).Perm l)
    {sched sched' : List Thread} {s s' : PipeState Grid (GoMap Nat (GoMap String Nat))}
    (h : (b.pipeline fo srt cpus ord g).Reaches [] sched s) (hd : s.pos = .done)
    (h' : (b.pipeline fo srt cpus' ord' g').Reaches [] sched' s') (hd' : s'.pos = .done) :
    ∃ d d', Bagged.consensus fo parse pg ordRows ords g s.tally = Res.ok d ∧
      Bagged.consensus fo parse pg ordRows' ords' g' s'.tally = Res.ok d' ∧
      ∀ r r', r < n → r' < n' → (∀ i, i < b.classifiers.length → lab' i r' = lab i r) →
        ∃ c c', getClass fo (.dense d) r = Res.ok c ∧ getClass fo (.dense d') r' = Res.ok c' ∧
          votesFor b.classifiers.length lab r c' = votesFor b.classifiers.length lab r c ∧
          ∀ x, (∀ y, y ≠ x → votesFor b.classifiers.length lab r y < votesFor b.classifiers.length lab r x) → c = x ∧ c' = x := by
  obtain ⟨d, d1, _, d3⟩ := C65_majority (parse := parse) (pg := pg) H hsrt hrows hcls hroom hm hc hord hordRows hords h hd
  obtain ⟨d', d1', _, d3'⟩ := C65_majority (parse := parse) (pg := pg) H' hsrt hrows' hcls' hroom' hm hc' hord' hordRows' hords' h' hd'
  refine ⟨d, d', d1, d1', fun r r' hr hr' hl => ?_⟩
  obtain ⟨c, c1, _, c3⟩ := d3 r hr
  obtain ⟨c', c1', _, c3'⟩ := d3' r' hr'
  have hv : ∀ x, votesFor b.classifiers.length lab' r' x = votesFor b.classifiers.length lab r x := fun x => by
    unfold votesFor
    rw [List.filter_congr fun i hi => by rw [hl i (List.mem_range.1 hi)]]
  simp only [hv] at c3'
  refine ⟨c, c', c1, c1', le_antisymm (c3 c') (c3' c), fun x hx => ⟨?_, ?_⟩⟩
  · by_contra hne
    exact absurd (c3 x) (not_le.2 (hx c hne))
  · by_contra hne
    exact absurd (c3' x) (not_le.2 (hx c' hne))

/-- The hypotheses hold for two models and two rows, with one processor and with three, and with the votes and rows looked through in
different orders. Both runs can be carried to the end, and the second row gets the class y in both. -/
theorem C172_witness : ∃ (b : Bagged) (g : Grid) (sched sched' : List Thread) (s s' : PipeState Grid (GoMap Nat (GoMap String Nat))) (d d' : Dense),
    b.classifiers.length = 2 ∧ g.size.2 = 2 ∧
    (b.pipeline ⟨fun _ _ => "", fun _ _ => false⟩ id 1 (fun _ => someOrder) g).Reaches [] sched s ∧ s.pos = .done ∧
    (b.pipeline ⟨fun _ _ => "", fun _ _ => false⟩ id 3 (fun _ => someOrder) g).Reaches [] sched' s' ∧ s'.pos = .done ∧
    Bagged.consensus ⟨fun _ _ => "", fun _ _ => false⟩ (fun _ => none) 4096 id (fun _ => id) g s.tally = Res.ok d ∧
    Bagged.consensus ⟨fun _ _ => "", fun _ _ => false⟩ (fun _ => none) 4096 List.reverse (fun _ => List.reverse) g s'.tally = Res.ok d' ∧
    getClass ⟨fun _ _ => "", fun _ _ => false⟩ (.dense d) 1 = Res.ok "y" ∧
    getClass ⟨fun _ _ => "", fun _ _ => false⟩ (.dense d') 1 = Res.ok "y" := by
  obtain ⟨b, g, g1, g2, g3, H⟩ := bag_example
  have hp : ∀ l : List Spec, (id l).Perm l := fun _ => List.Perm.refl _
  have ho : ∀ (_ : Nat) (v : Grid), v.RowOrder (someOrder v) := fun _ => someOrder_rowOrder
  obtain ⟨sched, s, h, hd⟩ := C64_completes H hp (cpus := 1) (by decide) (ord := fun _ => someOrder) ho (sched := []) (s := _) rfl
  obtain ⟨sched', s', h', hd'⟩ := C64_completes H hp (cpus := 3) (by decide) (ord := fun _ => someOrder) ho (sched := []) (s := _) rfl
  obtain ⟨d, d', e1, e2, e3⟩ := C172_rows (parse := fun _ => none) (pg := 4096) H H hp g1 g1 g2 g2 (by decide) (by decide) (by rw [g3]; decide)
    (cpus := 1) (cpus' := 3) (by decide) (by decide) ho ho (ordRows := id) (ordRows' := List.reverse) (fun _ => List.Perm.refl _)
    (fun l => List.reverse_perm l) (ords := fun _ => id) (ords' := fun _ => List.reverse) (fun _ _ => List.Perm.refl _)
    (fun _ l => List.reverse_perm l) h hd h' hd'
  obtain ⟨c, c', k1, k2, _, k3⟩ := e3 1 1 (by decide) (by decide) fun _ _ => rfl
  obtain ⟨rfl, rfl⟩ := k3 "y" (by
    intro y hy
    rw [g3]
    have : ("y" == y) = false := by simpa using fun e => hy e.symm
    simp [votesFor, this])
  exact ⟨b, g, sched, sched', s, s', d, d', g3, g1, h, hd, h', hd', e1, e2, k1, k2⟩

end Golearn
