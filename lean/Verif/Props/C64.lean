import Verif.Proofs.BagVotes
import Verif.Proofs.DenseTable

/-! # C64: bagging counts every model's vote once under every schedule -/

namespace Golearn

section
variable {b : Bagged} {fo : FloatOps} {srt : List Spec → List Spec} {g : Grid} {n : Nat} {lab : Nat → Nat → String}

/-- Whatever the goroutines have done so far, nothing has panicked, and as long as `Predict` is not past its last wait
some goroutine can move. -/
theorem C64_no_deadlock (H : b.Predicts fo srt g n lab) (hsrt : ∀ l, (srt l).Perm l) {cpus : Nat} (hc : 0 < cpus)
    {ord : Nat → Grid → List Nat} (hord : ∀ j (v : Grid), v.RowOrder (ord j v)) {sched : List Thread}
    {s : PipeState Grid (GoMap Nat (GoMap String Nat))}
    (h : (b.pipeline fo srt cpus ord g).Reaches [] sched s) :
    s.crashed = false ∧ (s.pos ≠ .done → ∃ t s', (b.pipeline fo srt cpus ord g).step s t = some s') := by
  obtain ⟨⟨l, I⟩, _⟩ := Pipeline.alive_exec (pipeline_predict H cpus ord) (pipeline_count H hsrt cpus hord) sched
    (Pipeline.inv_start (tallied_nil fo n)) h
  exact ⟨I.alive, Pipeline.inv_progress hc I⟩

/-- Every schedule ends: with `m` models and `cpus` workers there are never more than `5 * m + cpus + 4` moves, and it
takes exactly that many to get past the last wait. -/
theorem C64_terminates (H : b.Predicts fo srt g n lab) (hsrt : ∀ l, (srt l).Perm l) {cpus : Nat} (hc : 0 < cpus)
    {ord : Nat → Grid → List Nat} (hord : ∀ j (v : Grid), v.RowOrder (ord j v)) {sched : List Thread}
    {s : PipeState Grid (GoMap Nat (GoMap String Nat))}
    (h : (b.pipeline fo srt cpus ord g).Reaches [] sched s) :
    sched.length ≤ 5 * b.classifiers.length + cpus + 4 ∧
      (s.pos = .done ↔ sched.length = 5 * b.classifiers.length + cpus + 4) := by
  obtain ⟨⟨l, I⟩, hm⟩ := Pipeline.alive_exec (pipeline_predict H cpus ord) (pipeline_count H hsrt cpus hord) sched
    (Pipeline.inv_start (tallied_nil fo n)) h
  rw [Pipeline.movesLeft_start] at hm
  have hm' : (b.pipeline fo srt cpus ord g).movesLeft s + sched.length = 5 * b.classifiers.length + cpus + 4 := hm
  refine ⟨by omega, ?_, ?_⟩
  · intro hd
    have := (Pipeline.inv_done hc I hd).2.2
    omega
  · intro he
    by_contra hd
    obtain ⟨t, s', hs⟩ := Pipeline.inv_progress hc I hd
    have ha := Pipeline.alive_step (fun i hi => ⟨_, pipeline_predict H cpus ord i hi⟩)
      (fun l t k i a b => by
        obtain ⟨t', c, _⟩ := pipeline_count H hsrt cpus hord l t k i a b
        exact ⟨t', c⟩) I hs
    have hx : (b.pipeline fo srt cpus ord g).exec ((b.pipeline fo srt cpus ord g).start []) (sched ++ [t]) = some s' := by
      have app : ∀ (p : Pipeline Grid (GoMap Nat (GoMap String Nat))) (x y : List Thread) s0,
          p.exec s0 (x ++ y) = (p.exec s0 x).bind fun s1 => p.exec s1 y := by
        intro p x y
        induction x with
        | nil => intro s0; rfl
        | cons z zs ih =>
          intro s0
          simp only [List.cons_append, Pipeline.exec]
          cases p.step s0 z with
          | none => rfl
          | some s1 => simp only [Option.bind_some, ih]
      rw [app, show (b.pipeline fo srt cpus ord g).exec ((b.pipeline fo srt cpus ord g).start []) sched = some s from h]
      simp only [Option.bind_some, Pipeline.exec, hs]
    obtain ⟨_, hm2⟩ := Pipeline.alive_exec (pipeline_predict H cpus ord) (pipeline_count H hsrt cpus hord) (sched ++ [t])
      (Pipeline.inv_start (tallied_nil fo n)) hx
    rw [Pipeline.movesLeft_start] at hm2
    have hm2' : (b.pipeline fo srt cpus ord g).movesLeft s' + (sched ++ [t]).length =
      5 * b.classifiers.length + cpus + 4 := hm2
    rw [List.length_append, List.length_singleton] at hm2'
    omega

/-- Every schedule can be carried on until `Predict` is past its last wait. -/
theorem C64_completes (H : b.Predicts fo srt g n lab) (hsrt : ∀ l, (srt l).Perm l) {cpus : Nat} (hc : 0 < cpus)
    {ord : Nat → Grid → List Nat} (hord : ∀ j (v : Grid), v.RowOrder (ord j v)) {sched : List Thread}
    {s : PipeState Grid (GoMap Nat (GoMap String Nat))}
    (h : (b.pipeline fo srt cpus ord g).Reaches [] sched s) :
    ∃ more s', (b.pipeline fo srt cpus ord g).exec s more = some s' ∧ s'.pos = .done := by
  obtain ⟨⟨l, I⟩, -⟩ := Pipeline.alive_exec (pipeline_predict H cpus ord) (pipeline_count H hsrt cpus hord) sched
    (Pipeline.inv_start (tallied_nil fo n)) h
  clear h
  generalize hk : (b.pipeline fo srt cpus ord g).movesLeft s = k
  induction k generalizing s l with
  | zero =>
    by_cases hd : s.pos = .done
    · exact ⟨[], s, rfl, hd⟩
    · obtain ⟨t, s', hs⟩ := Pipeline.inv_progress hc I hd
      obtain ⟨_, hm⟩ := Pipeline.alive_exec (pipeline_predict H cpus ord) (pipeline_count H hsrt cpus hord) [t] I
        (s' := s') (by simp only [Pipeline.exec, hs, Option.bind_some])
      rw [List.length_singleton] at hm
      omega
  | succ k ih =>
    by_cases hd : s.pos = .done
    · exact ⟨[], s, rfl, hd⟩
    · obtain ⟨t, s', hs⟩ := Pipeline.inv_progress hc I hd
      obtain ⟨⟨l', I'⟩, hm⟩ := Pipeline.alive_exec (pipeline_predict H cpus ord) (pipeline_count H hsrt cpus hord) [t] I
        (s' := s') (by simp only [Pipeline.exec, hs, Option.bind_some])
      rw [List.length_singleton] at hm
      obtain ⟨more, s2, h1, h2⟩ := ih l' I' (by omega)
      exact ⟨t :: more, s2, by simp only [Pipeline.exec, hs, Option.bind_some, h1], h2⟩

/-- Whatever the schedule was, past the last wait the tally has an entry for exactly the rows of the data, and it holds
for every row and class the number of models that predict the class for the row. -/
theorem C64_tally (H : b.Predicts fo srt g n lab) (hsrt : ∀ l, (srt l).Perm l) {cpus : Nat} (hc : 0 < cpus)
    {ord : Nat → Grid → List Nat} (hord : ∀ j (v : Grid), v.RowOrder (ord j v)) {sched : List Thread}
    {s : PipeState Grid (GoMap Nat (GoMap String Nat))}
    (h : (b.pipeline fo srt cpus ord g).Reaches [] sched s) (hd : s.pos = .done) :
    (∀ r, (s.tally.get? r).isSome ↔ r < n ∧ 0 < b.classifiers.length) ∧
      ∀ r, r < n → ∀ c, (((s.tally.get? r).getD []).get? c).getD 0 = votesFor b.classifiers.length lab r c := by
  obtain ⟨h1, h2, h3⟩ := tally_done H hsrt hc hord h hd
  refine ⟨?_, ?_⟩
  · intro r
    rw [GoMap.isSome_iff_mem, h2]
  · intro r hr c
    obtain ⟨ls, hl, hp⟩ := h3 r hr
    have e : votesFor b.classifiers.length lab r c = ls.count c := by
      rw [hp.count_eq, votesFor, List.count, List.countP_map, List.countP_eq_length_filter]
      rfl
    rw [e, hl.2 c]
    by_cases hm : c ∈ ls
    · rw [if_pos hm]; rfl
    · rw [if_neg hm, List.count_eq_zero.2 hm]; rfl

/-- Each model gets the attributes selected for it, as long as the data has them. -/
theorem C64_parts (P : g.Presents n) (hd : g.distinct) (hsrt : ∀ l, (srt l).Perm l) (i : Nat) (as : List Attr)
    (hsel : b.selected.get? i = some as) (has : ∀ a ∈ as, a ∈ g.allAttributes) :
    ∃ part, b.predictionInstances srt i g = Res.ok part ∧ part.Presents n ∧ part.allAttributes.Perm as ∧
      ∀ a ∈ as, ∀ r, part.cell a r = g.cell a r := by
  obtain ⟨sp, hsp⟩ := P.resolve_total has
  obtain ⟨r1, r2⟩ := P.resolves has ⟨sp, hsp, hsrt sp⟩
  obtain ⟨h1, h2⟩ := attrs_presents P hd r2
  refine ⟨Grid.viewFromAttrs g (srt sp), ?_, h1, ?_, fun a ha r => h2 a (r1.symm.subset ha) r⟩
  · simp only [Bagged.predictionInstances, hsel, Option.getD_some, Grid.resolve, hsp, Res.map_ok]
  · simpa [Grid.viewFromAttrs, Grid.allAttributes] using r1

end

section Examples
private def fa : Attr := ⟨0, .float "a" 2⟩
private def fc : Attr := ⟨1, .cat "c" ["x", "y"]⟩
private def ops1 : List Op := [.add fa, .add fc, .extend 2, .set 1 1 (packU64 1), .addClass fc]
private def fo0 : FloatOps := ⟨fun _ _ => "", fun _ _ => false⟩

/-- One model answers with the data itself, the other with its own part of it. -/
private def two (g : Grid) : Bagged := ⟨[fun _ => Res.ok g, fun l => Res.ok l], [(0, [fa, fc]), (1, [fc])]⟩

/-- Two models predicting two rows. -/
theorem bag_example : ∃ (b : Bagged) (g : Grid), g.size.2 = 2 ∧ g.allClassAttributes = [⟨1, .cat "c" ["x", "y"]⟩] ∧
    b.classifiers.length = 2 ∧
    b.Predicts ⟨fun _ _ => "", fun _ _ => false⟩ id g 2 (fun _ r => if r = 1 then "y" else "x") := by
  have hw : ∃ st sp0 sp1, run 4096 ops1 = Res.ok st ∧ (∀ op ∈ ops1, basicOp op = true) ∧
      (addedAttrs ops1).Pairwise (fun a b => a.equals b = false) ∧ totalRows ops1 = 2 ∧
      st.d.allClassAttributes = [fc] ∧ st.d.allAttributes = [fa, fc] ∧
      (Grid.dense st.d).resolveUnsorted [fa, fc] = Res.ok sp0 ∧
      (Grid.dense st.d).resolveUnsorted [fc] = Res.ok sp1 ∧ sp1.map Spec.attr = [fc] ∧
      (Grid.viewFromAttrs (.dense st.d) sp1).allClassAttributes = [fc] ∧
      (∀ r ∈ [0, 1], fc.getString fo0 ((Grid.dense st.d).cell fc r) = Res.ok (if r = 1 then "y" else "x")) := by
    refine ⟨_, _, _, rfl, ?_, ?_, ?_, ?_, ?_, rfl, rfl, ?_⟩
    all_goals decide +kernel
  obtain ⟨st, sp0, sp1, hrun, hb, hd, h2, hcl, hat, hr0, hr1, hs1, hv1, hlab⟩ := hw
  refine ⟨two (.dense st.d), .dense st.d, ?_⟩
  have D := denseOK_run hb hrun hd
  rw [h2] at D
  have P := D.presents
  refine ⟨P.rows, hcl, rfl, ?_⟩
  have hin : ∀ a ∈ [fc], a ∈ (Grid.dense st.d).allAttributes := by
    intro a ha
    show a ∈ st.d.allAttributes
    rw [hat]; simp_all
  obtain ⟨r1, r2⟩ := P.resolves hin ⟨sp1, hr1, List.Perm.refl _⟩
  obtain ⟨v1, v2⟩ := attrs_presents P D.1 r2
  intro i f hf
  match i with
  | 0 =>
    cases hf
    refine ⟨Grid.viewFromAttrs (.dense st.d) sp0, _, ?_, rfl, P, fc, hcl, hin fc (by simp), ?_⟩
    · simp [two, Bagged.predictionInstances, GoMap.get?, Grid.resolve, hr0]
    · intro r hr
      exact hlab r (by simp; omega)
  | 1 =>
    cases hf
    refine ⟨Grid.viewFromAttrs (.dense st.d) sp1, _, ?_, rfl, v1, fc, hv1, ?_, ?_⟩
    · simp [two, Bagged.predictionInstances, GoMap.get?, Grid.resolve, hr1]
    · show fc ∈ sp1.map Spec.attr
      rw [hs1]; simp
    · intro r hr
      rw [v2 fc (by rw [hs1]; simp)]
      exact hlab r (by simp; omega)
  | i + 2 => cases hf
end Examples

end Golearn
