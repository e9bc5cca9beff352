import Verif.Model.Serialize
import Verif.Proofs.DenseTable
import Verif.Proofs.Swap
import Verif.Proofs.Copy
import Verif.Props.C09

namespace Golearn

/-! ## Building the result grid -/

theorem addAll_run (pg : Nat) (as : List Attr) (ops : List Op) (st : St)
    (hb : ∀ op ∈ ops, basicOp op = true) (hrun : run pg ops = Res.ok st)
    (hne : ∀ n, Op.extend n ∉ ops) :
    ∃ st', addAll pg st.d as = Res.ok st'.d ∧ run pg (ops ++ as.map Op.add) = Res.ok st' := by
  induction as generalizing ops st with
  | nil => exact ⟨st, rfl, by simpa using hrun⟩
  | cons a as ih =>
    obtain ⟨I, _, hf⟩ := run_inv pg ops st (basic_noLate hb) hrun
    have hfix : st.d.fixed = false := by
      rw [← Bool.not_eq_true, hf]
      rintro ⟨n, hn⟩
      exact hne n hn
    obtain ⟨p, hp⟩ := addAttribute_total (pg := pg) I hfix a
    have hstep : run pg (ops ++ [Op.add a]) = Res.ok ⟨p.1, st.handles ++ [p.2]⟩ := by
      rw [run_snoc, hrun, Res.bind_ok, step, hp, Res.map_ok]
    obtain ⟨st', h1, h2⟩ := ih (ops ++ [Op.add a]) ⟨p.1, st.handles ++ [p.2]⟩
      (by
        intro op hop
        rcases List.mem_append.1 hop with h | h
        · exact hb op h
        · rw [List.mem_singleton.1 h]; rfl)
      hstep
      (by
        intro n hn
        rcases List.mem_append.1 hn with h | h
        · exact hne n h
        · simp at h)
    refine ⟨st', ?_, ?_⟩
    · rw [addAll, hp, Res.bind_ok]; exact h1
    · rw [List.map_cons]; simpa using h2

/-- The calls made for the class attributes. -/
def classOps (cls : List Attr) : List Op := cls.flatMap fun a => [Op.add a, Op.addClass a]

theorem addedAttrs_classOps (cls : List Attr) : addedAttrs (classOps cls) = cls := by
  induction cls with
  | nil => rfl
  | cons a as ih =>
    have : classOps (a :: as) = [Op.add a, Op.addClass a] ++ classOps as := by simp [classOps]
    rw [this, addedAttrs_append, ih]; rfl

theorem addedAttrs_adds (as : List Attr) : addedAttrs (as.map Op.add) = as := by
  induction as with
  | nil => rfl
  | cons a as ih =>
    have : (a :: as).map Op.add = [Op.add a] ++ as.map Op.add := by simp
    rw [this, addedAttrs_append, ih]; rfl

theorem addAllClass_run (pg : Nat) (as : List Attr) (ops : List Op) (st : St)
    (hb : ∀ op ∈ ops, basicOp op = true) (hrun : run pg ops = Res.ok st)
    (hne : ∀ n, Op.extend n ∉ ops) :
    ∃ st', addAllClass pg st.d as = Res.ok st'.d ∧ run pg (ops ++ classOps as) = Res.ok st' := by
  induction as generalizing ops st with
  | nil => exact ⟨st, rfl, by simpa [classOps] using hrun⟩
  | cons a as ih =>
    obtain ⟨I, _, hf⟩ := run_inv pg ops st (basic_noLate hb) hrun
    have hfix : st.d.fixed = false := by
      rw [← Bool.not_eq_true, hf]
      rintro ⟨n, hn⟩
      exact hne n hn
    obtain ⟨p, hp⟩ := addAttribute_total (pg := pg) I hfix a
    have hstep : run pg (ops ++ [Op.add a]) = Res.ok ⟨p.1, st.handles ++ [p.2]⟩ := by
      rw [run_snoc, hrun, Res.bind_ok, step, hp, Res.map_ok]
    have hb1 : ∀ op ∈ ops ++ [Op.add a], basicOp op = true := by
      intro op hop
      rcases List.mem_append.1 hop with h | h
      · exact hb op h
      · rw [List.mem_singleton.1 h]; rfl
    obtain ⟨I1, _, _⟩ := run_inv pg _ _ (basic_noLate hb1) hstep
    obtain ⟨_, hat⟩ := run_basic pg _ _ hb1 hstep
    have hmem : a ∈ p.1.allAttributes := by
      have : a ∈ addedAttrs (ops ++ [Op.add a]) := by
        rw [addedAttrs_append]; exact List.mem_append_right _ (by simp [addedAttrs])
      rw [← hat] at this
      exact I1.listed.symm.subset this
    obtain ⟨d', hd'⟩ := ((C09_absent_is_error p.1 a).2 ⟨a, hmem, C28_equals_refl a⟩).1
    have hstep2 : run pg (ops ++ [Op.add a] ++ [Op.addClass a]) = Res.ok ⟨d', st.handles ++ [p.2]⟩ := by
      rw [run_snoc, hstep, Res.bind_ok, step]
      simp only [hd', Res.map_ok, absorb]
    obtain ⟨st', h1, h2⟩ := ih (ops ++ [Op.add a] ++ [Op.addClass a]) ⟨d', st.handles ++ [p.2]⟩
      (by
        intro op hop
        rcases List.mem_append.1 hop with h | h
        · exact hb1 op h
        · rw [List.mem_singleton.1 h]; rfl)
      hstep2
      (by
        intro n hn
        rcases List.mem_append.1 hn with h | h
        · rcases List.mem_append.1 h with h | h
          · exact hne n h
          · simp at h
        · simp at h)
    refine ⟨st', ?_, ?_⟩
    · rw [addAllClass, hp, Res.bind_ok, hd', Res.bind_ok]; exact h1
    · have : classOps (a :: as) = [Op.add a, Op.addClass a] ++ classOps as := by simp [classOps]
      rw [this]; simpa using h2

/-- The grid made by adding pairwise different attributes and allocating `n` rows. -/
theorem build_spec (pg : Nat) (nrm cls : List Attr) (n : Nat)
    (hd : (nrm ++ cls).Pairwise (fun a b => a.equals b = false)) :
    ∃ d1 d2, addAll pg Dense.new nrm = Res.ok d1 ∧ addAllClass pg d1 cls = Res.ok d2 ∧
      DenseOK n (d2.extend n) ∧ (d2.extend n).allAttributes.Perm (nrm ++ cls) ∧
      (∀ x, x ∈ (d2.extend n).allClassAttributes ↔ x ∈ cls) ∧ (d2.extend n).allClassAttributes.Nodup := by
  obtain ⟨s1, a1, r1⟩ := addAll_run pg nrm [] St.init (by simp) rfl (by simp)
  obtain ⟨s2, a2, r2⟩ := addAllClass_run pg cls ([] ++ nrm.map Op.add) s1
    (by
      intro op hop
      simp only [List.nil_append, List.mem_map] at hop
      obtain ⟨a, _, rfl⟩ := hop; rfl)
    r1 (by simp)
  have r3 : run pg (([] ++ nrm.map Op.add) ++ classOps cls ++ [Op.extend n]) =
      Res.ok ⟨s2.d.extend n, s2.handles⟩ := by
    rw [run_snoc, r2, Res.bind_ok, step]
  have hb : ∀ op ∈ ([] ++ nrm.map Op.add) ++ classOps cls ++ [Op.extend n], basicOp op = true := by
    intro op hop
    simp only [List.nil_append, List.mem_append, List.mem_map, List.mem_singleton, classOps,
      List.mem_flatMap, List.mem_cons, List.not_mem_nil, or_false] at hop
    rcases hop with (⟨a, _, rfl⟩ | ⟨a, _, rfl | rfl⟩) | rfl <;> rfl
  have hadd : addedAttrs (([] ++ nrm.map Op.add) ++ classOps cls ++ [Op.extend n]) = nrm ++ cls := by
    rw [addedAttrs_append, addedAttrs_append, List.nil_append, addedAttrs_adds, addedAttrs_classOps]
    simp [addedAttrs]
  have hrows : totalRows (([] ++ nrm.map Op.add) ++ classOps cls ++ [Op.extend n]) = n := by
    have h1 : ∀ as : List Attr, ((as.map Op.add).map rowsOf).sum = 0 := by
      intro as
      induction as with
      | nil => rfl
      | cons a as ih => simpa [rowsOf] using ih
    have h2 : ∀ as : List Attr, ((classOps as).map rowsOf).sum = 0 := by
      intro as
      induction as with
      | nil => rfl
      | cons a as ih =>
        have : classOps (a :: as) = [Op.add a, Op.addClass a] ++ classOps as := by simp [classOps]
        rw [this]; simpa [rowsOf] using ih
    simp only [totalRows, List.nil_append, List.map_append, List.sum_append, h1, h2]
    simp [rowsOf]
  have hd' := hd
  rw [← hadd] at hd'
  have D := denseOK_run hb r3 hd'
  rw [hrows] at D
  obtain ⟨I, _, _⟩ := run_inv pg _ _ (basic_noLate hb) r3
  obtain ⟨_, hat⟩ := run_basic pg _ _ hb r3
  rw [hadd] at hat
  refine ⟨s1.d, s2.d, a1, a2, D, hat ▸ I.listed, ?_, (C09_class_attributes pg _ _ hb r3 hd').2⟩
  have hcl := (C09_class_attributes pg _ _ hb r3 hd').1
  intro x
  rw [hcl x]
  constructor
  · rintro ⟨pre, b, post, e, hx, he, _⟩
    have hbm : Op.addClass b ∈ ([] ++ nrm.map Op.add) ++ classOps cls ++ [Op.extend n] := by
      rw [e]; simp
    have hbc : b ∈ cls := by
      simp only [List.nil_append, List.mem_append, List.mem_map, List.mem_singleton, classOps,
        List.mem_flatMap, List.mem_cons, List.not_mem_nil, or_false, reduceCtorEq, and_false,
        exists_false, false_or, Op.addClass.injEq] at hbm
      obtain ⟨a, h, rfl⟩ := hbm
      exact h
    have hxa : x ∈ nrm ++ cls := by
      rw [← hadd, e, addedAttrs_append]; exact List.mem_append_left _ hx
    have hperm : (s2.d.extend n).allAttributes.Perm (nrm ++ cls) := hat ▸ I.listed
    have hdg := distinct_eq D.1 (hperm.symm.subset hxa)
      (hperm.symm.subset (List.mem_append_right _ hbc)) he
    rw [hdg]
    exact hbc
  · intro hx
    obtain ⟨c1, c2, hsplit⟩ := List.append_of_mem hx
    refine ⟨nrm.map Op.add ++ classOps c1 ++ [Op.add x], x, classOps c2 ++ [Op.extend n], ?_, ?_,
      C28_equals_refl x, ?_⟩
    · rw [hsplit]; simp [classOps]
    · rw [addedAttrs_append]
      exact List.mem_append_right _ (by simp [addedAttrs])
    · intro c hcm
      simp [classOps] at hcm

/-! ## Reading the cells -/

/-- A cell to be filled: attribute, row, value. -/
structure CellVal where
  attr : Attr
  row : Nat
  val : Bytes

theorem readCells_spec (chunk : Nat → Nat → Nat) (look : Attr → Spec) (cs : List CellVal)
    {rows : Nat} {d : Dense} (D : DenseOK rows d) (off : Nat)
    (hlook : ∀ c ∈ cs, d.getAttribute c.attr = Res.ok (look c.attr))
    (hcs : ∀ c ∈ cs, c.attr ∈ d.allAttributes ∧ c.row < rows ∧ wellFormed c.attr c.val)
    (hnd : cs.Pairwise fun a b => ¬ (a.attr = b.attr ∧ a.row = b.row))
    (hchunk : ∀ p c q, cs = p ++ c :: q →
      c.val.length ≤ chunk (off + (p.map fun c => c.val.length).sum) c.val.length) :
    ∃ d', readCells chunk d (cs.map fun c => (look c.attr, c.row)) off (cs.flatMap CellVal.val) =
        Res.ok d' ∧ DenseOK rows d' ∧ d'.allAttributes = d.allAttributes ∧
      d'.classAttrs = d.classAttrs ∧
      (∀ c ∈ cs, (Grid.dense d').cell c.attr c.row = c.val) ∧
      ∀ b ∈ d.allAttributes, ∀ q, q < rows → (∀ c ∈ cs, ¬ (c.attr = b ∧ c.row = q)) →
        (Grid.dense d').cell b q = (Grid.dense d).cell b q := by
  induction cs generalizing d off with
  | nil => exact ⟨d, rfl, D, rfl, rfl, by simp, fun _ _ _ _ _ => rfl⟩
  | cons c cs ih =>
    obtain ⟨ha, hr, hw⟩ := hcs c (by simp)
    have hl := hlook c (by simp)
    obtain ⟨d1, e1, D1, A1, C1, L1, F1, V1⟩ := D.set ha hl hr hw
    have hget : d.get (look c.attr) c.row = Res.ok ((Grid.dense d).cell c.attr c.row) :=
      (D.presents.get_spec (a := c.attr) ha hl).2 _ hr
    have hlen : ((Grid.dense d).cell c.attr c.row).length = c.val.length := by
      have h1 := D.typed c.attr ha c.row hr
      unfold wellFormed at h1 hw
      split at h1
      · rw [if_pos ‹_›] at hw
        rcases h1 with h1 | h1 <;> rcases hw with h2 | h2 <;> rw [h1, h2] <;> rfl
      · rw [if_neg ‹_›] at hw
        rw [h1, hw]
    have hpos : 0 < c.val.length := by
      unfold wellFormed at hw
      split at hw
      · rcases hw with h2 | h2 <;> rw [h2] <;> decide
      · omega
    have hch : c.val.length ≤ chunk off c.val.length := by
      have := hchunk [] c cs rfl
      simpa using this
    obtain ⟨d2, e2, D2, A2, C2, V2, W2⟩ := ih D1 (off + c.val.length)
      (fun x hx => by rw [L1]; exact hlook x (by simp [hx]))
      (fun x hx => by rw [A1]; exact hcs x (by simp [hx]))
      (List.pairwise_cons.1 hnd).2
      (by
        intro p x q hpq
        have := hchunk (c :: p) x q (by rw [hpq]; rfl)
        rw [List.map_cons, List.sum_cons, ← Nat.add_assoc] at this
        exact this)
    refine ⟨d2, ?_, D2, by rw [A2, A1], by rw [C2, C1], ?_, ?_⟩
    · simp only [List.map_cons, List.flatMap_cons, readCells, hget, Res.bind_ok, hlen]
      have hmin : min (min (chunk off c.val.length) c.val.length) (c.val ++ cs.flatMap CellVal.val).length =
          c.val.length := by
        rw [List.length_append]; omega
      rw [hmin, if_neg (by simp), List.take_left, e1, Res.bind_ok, List.drop_left]
      have hguard : ((cs.flatMap CellVal.val).isEmpty &&
          !(cs.map fun c => (look c.attr, c.row)).isEmpty) = false := by
        cases cs with
        | nil => rfl
        | cons x xs =>
          have hx := (hcs x (by simp)).2.2
          have : 0 < x.val.length := by
            unfold wellFormed at hx
            split at hx
            · rcases hx with h2 | h2 <;> rw [h2] <;> decide
            · omega
          cases hxv : x.val with
          | nil => rw [hxv] at this; simp at this
          | cons y ys => simp [hxv]
      rw [hguard, if_neg (by simp)]
      exact e2
    · intro x hx
      rcases List.mem_cons.1 hx with rfl | hx
      · have hno : ∀ c' ∈ cs, ¬ (c'.attr = x.attr ∧ c'.row = x.row) := by
          intro c' hc' e
          exact (List.pairwise_cons.1 hnd).1 c' hc' ⟨e.1.symm, e.2.symm⟩
        rw [W2 x.attr (A1 ▸ ha) x.row hr hno, V1 x.attr ha x.row hr, if_pos ⟨rfl, rfl⟩]
      · exact V2 x hx
    · intro b hb q hq hno
      rw [W2 b (A1 ▸ hb) q hq (fun c' hc' => hno c' (by simp [hc'])), V1 b hb q hq, if_neg]
      intro e
      exact hno c (by simp) ⟨e.1.symm, e.2.symm⟩

theorem dense_cell_congr {d d' : Dense} (h : d.ags = d'.ags) : d.allAttributes = d'.allAttributes := by
  unfold Dense.allAttributes
  rw [h]

end Golearn
