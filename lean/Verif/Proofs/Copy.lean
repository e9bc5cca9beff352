import Verif.Model.Copy
import Verif.Proofs.Grid
import Verif.Proofs.ClassAttrs
import Verif.Proofs.Table
import Verif.Props.C06
import Verif.Props.C09

namespace Golearn

/-- A history continued from a state. -/
def runFrom (pg : Nat) (st : St) (ops : List Op) : Res St :=
  ops.foldl (fun r op => r.bind fun st => step pg st op) (Res.ok st)

theorem foldl_bind_ne {pg : Nat} (ops : List Op) :
    (∀ r : Res St, (∀ s, r ≠ Res.ok s) →
      ops.foldl (fun r op => r.bind fun st => step pg st op) r = r) := by
  induction ops with
  | nil => intro r _; rfl
  | cons o os ih =>
    intro r hr
    simp only [List.foldl_cons]
    cases r with
    | ok s => exact absurd rfl (hr s)
    | err => exact ih _ (by simp [Res.bind])
    | panic => exact ih _ (by simp [Res.bind])

theorem runFrom_cons (pg : Nat) (st : St) (op : Op) (ops : List Op) :
    runFrom pg st (op :: ops) = (step pg st op).bind fun st' => runFrom pg st' ops := by
  unfold runFrom
  simp only [List.foldl_cons, Res.bind_ok]
  cases h : step pg st op with
  | ok s => rfl
  | err => exact foldl_bind_ne ops _ (by simp)
  | panic => exact foldl_bind_ne ops _ (by simp)

theorem runFrom_append (pg : Nat) (st : St) (a b : List Op) :
    runFrom pg st (a ++ b) = (runFrom pg st a).bind fun st' => runFrom pg st' b := by
  induction a generalizing st with
  | nil => rfl
  | cons x xs ih =>
    rw [List.cons_append, runFrom_cons, runFrom_cons]
    cases step pg st x with
    | ok s => simp [ih]
    | err => rfl
    | panic => rfl

theorem run_eq (pg : Nat) (ops : List Op) : run pg ops = runFrom pg St.init ops := rfl

theorem copyLoop_run (pg : Nat) (g : Grid) (look : Attr → Spec) (as : List Attr) (d : Dense)
    (s1 s2 : List Spec) (hl : ∀ a ∈ as, g.getAttribute a = Res.ok (look a)) :
    (copyLoop pg g as d s1 s2).map (fun p => (⟨p.1, p.2.2⟩ : St)) =
        runFrom pg ⟨d, s2⟩ (as.map Op.add) ∧
      ∀ p, copyLoop pg g as d s1 s2 = Res.ok p → p.2.1 = s1 ++ as.map look := by
  induction as generalizing d s1 s2 with
  | nil =>
    refine ⟨rfl, ?_⟩
    intro p hp
    simp only [copyLoop, Res.ok.injEq] at hp
    subst hp; simp
  | cons a as ih =>
    simp only [List.map_cons, runFrom_cons, copyLoop, hl a (by simp), step]
    cases had : d.addAttribute pg a with
    | ok p =>
      simp only [Res.bind_ok, Res.map_ok]
      obtain ⟨h1, h2⟩ := ih p.1 (s1 ++ [look a]) (s2 ++ [p.2]) (fun b hb => hl b (by simp [hb]))
      refine ⟨h1, ?_⟩
      intro q hq
      rw [h2 q hq]; simp
    | err => exact ⟨rfl, by intro p hp; cases hp⟩
    | panic => exact ⟨rfl, by intro p hp; cases hp⟩

theorem addClass_step (pg : Nat) (d : Dense) (hs : List Spec) (a : Attr) :
    step pg ⟨d, hs⟩ (Op.addClass a) = Res.ok ⟨addClasses d [a], hs⟩ := by
  simp only [step, addClasses, List.foldl_cons, List.foldl_nil]
  have := getAttribute_ne_panic d a
  unfold Dense.addClassAttribute
  cases h : d.getAttribute a with
  | ok s => rfl
  | err => rfl
  | panic => exact absurd h this

theorem addClasses_run (pg : Nat) (d : Dense) (hs : List Spec) (cs : List Attr) :
    runFrom pg ⟨d, hs⟩ (cs.map Op.addClass) = Res.ok ⟨addClasses d cs, hs⟩ := by
  induction cs generalizing d with
  | nil => rfl
  | cons c cs ih =>
    rw [List.map_cons, runFrom_cons, addClass_step, Res.bind_ok, ih]
    rfl

/-- The writes made for one row. -/
def rowOps (k r : Nat) : List Bytes → List Op
  | [] => []
  | v :: vs => Op.set k r v :: rowOps (k + 1) r vs

theorem setAll_run (pg : Nat) (hs : List Spec) (r : Nat) (vs : List Bytes) (d : Dense) (k : Nat) :
    runFrom pg ⟨d, hs⟩ (rowOps k r vs) =
      (setAll d (hs.drop k) r vs).map fun d' => (⟨d', hs⟩ : St) := by
  induction vs generalizing d k with
  | nil => simp [rowOps, setAll, runFrom]
  | cons v vs ih =>
    rw [rowOps, runFrom_cons]
    simp only [step]
    cases hk : hs[k]? with
    | none =>
      have : hs.drop k = [] := by
        rw [List.drop_eq_nil_iff]
        exact List.getElem?_eq_none_iff.1 hk
      rw [this]
      rfl
    | some s =>
      obtain ⟨hlt, he⟩ := List.getElem?_eq_some_iff.1 hk
      rw [List.drop_eq_getElem_cons hlt, he]
      simp only [setAll]
      cases hset : d.set s r v with
      | ok d' => simp only [Res.map_ok, Res.bind_ok]; exact ih d' (k + 1)
      | err => rfl
      | panic => rfl

theorem mapOver_sets (pg : Nat) (hs : List Spec) (vals : Nat → Res (List Bytes))
    (w : Nat → List Bytes) (order : List Nat) (hv : ∀ r ∈ order, vals r = Res.ok (w r)) (d : Dense) :
    (mapOver vals (fun d v r => (setAll d hs r v).map fun d' => (d', Ctl.cont)) d order).map
        (fun q => (⟨q.1, hs⟩ : St)) =
      runFrom pg ⟨d, hs⟩ (order.flatMap fun r => rowOps 0 r (w r)) := by
  induction order generalizing d with
  | nil => rfl
  | cons r rs ih =>
    rw [List.flatMap_cons, runFrom_append, setAll_run]
    simp only [mapOver, hv r (by simp), Res.bind_ok, List.drop_zero]
    cases hsa : setAll d hs r (w r) with
    | ok d' =>
      simp only [Res.map_ok, Res.bind_ok]
      exact ih (fun q hq => hv q (by simp [hq])) d'
    | err => rfl
    | panic => rfl

/-- The calls a dense copy amounts to. -/
def copyOps (attrs classes : List Attr) (rows : Nat) (order : List Nat) (w : Nat → List Bytes) :
    List Op :=
  attrs.map Op.add ++ (classes.map Op.addClass ++ (Op.extend rows ::
    order.flatMap fun r => rowOps 0 r (w r)))

theorem res_map_ok_of {α β : Type} {f : α → β} {x : Res α} {y : β} (h : x.map f = Res.ok y) :
    ∃ a, x = Res.ok a ∧ f a = y := (Res.map_eq_ok ..).1 h

theorem newDenseCopy_run (pg : Nat) (g : Grid) (classes : List Attr) (order : List Nat)
    (look : Attr → Spec) (w : Nat → List Bytes) (st : St)
    (hl : ∀ a ∈ g.allAttributes, g.getAttribute a = Res.ok (look a))
    (hp : g.mapPrep (g.allAttributes.map look) = Res.ok ())
    (hv : ∀ r ∈ order, g.rowVals (g.allAttributes.map look) r = Res.ok (w r))
    (hrun : run pg (copyOps g.allAttributes classes g.size.2 order w) = Res.ok st) :
    newDenseCopy pg g classes order = Res.ok st.d := by
  rw [run_eq, copyOps, runFrom_append] at hrun
  rw [Res.bind_eq_ok] at hrun
  obtain ⟨st1, h1, hrun⟩ := hrun
  obtain ⟨c1, c2⟩ := copyLoop_run pg g look g.allAttributes Dense.new [] [] hl
  rw [show (⟨Dense.new, []⟩ : St) = St.init from rfl, h1] at c1
  obtain ⟨p, hp1, hp2⟩ := res_map_ok_of c1
  have hs1 := c2 p hp1
  subst hp2
  rw [runFrom_append, addClasses_run, Res.bind_ok, runFrom_cons] at hrun
  simp only [step, Res.bind_ok] at hrun
  unfold newDenseCopy copyStructure
  rw [hp1]
  simp only [Res.map_ok, Res.bind_ok]
  unfold Grid.mapOverRows
  simp only [List.nil_append] at hs1
  rw [hs1, hp]
  simp only [Res.bind_ok]
  have := mapOver_sets pg p.2.2 (g.rowVals (g.allAttributes.map look)) w order hv
    ((addClasses p.1 classes).extend g.size.2)
  rw [hrun] at this
  obtain ⟨q, hq1, hq2⟩ := res_map_ok_of this
  rw [hq1]
  simp [← hq2]

/-! ## Legality of a sequence of calls -/

/-- `legal` along a list. -/
def LegalSeq : List Op → List Op → Prop
  | _, [] => True
  | pre, op :: ops => legal pre op ∧ LegalSeq (pre ++ [op]) ops

theorem legalSeq_append (pre a b : List Op) :
    LegalSeq pre (a ++ b) ↔ LegalSeq pre a ∧ LegalSeq (pre ++ a) b := by
  induction a generalizing pre with
  | nil => simp [LegalSeq]
  | cons x xs ih => simp [LegalSeq, ih, and_assoc]

theorem legalSeq_iff (pre ops : List Op) :
    LegalSeq pre ops ↔ ∀ p op q, ops = p ++ op :: q → legal (pre ++ p) op := by
  induction ops generalizing pre with
  | nil => simp [LegalSeq]
  | cons x xs ih =>
    simp only [LegalSeq, ih]
    constructor
    · rintro ⟨h1, h2⟩ p op q e
      cases p with
      | nil =>
        simp only [List.nil_append, List.cons.injEq] at e
        obtain ⟨rfl, rfl⟩ := e
        simpa using h1
      | cons y ys =>
        simp only [List.cons_append, List.cons.injEq] at e
        obtain ⟨rfl, e⟩ := e
        have := h2 ys op q e
        simpa using this
    · intro h
      refine ⟨by simpa using h [] x xs rfl, ?_⟩
      intro p op q e
      have := h (x :: p) op q (by rw [e]; rfl)
      simpa using this

theorem run_of_legal (pg : Nat) (ops : List Op) (hb : ∀ op ∈ ops, basicOp op = true)
    (hl : LegalSeq [] ops) : ∃ st, run pg ops = Res.ok st :=
  (C06_accepted_iff pg ops hb).2 (by simpa using (legalSeq_iff [] ops).1 hl)

theorem legal_adds (pre : List Op) (hpre : ∀ n, Op.extend n ∉ pre) (as : List Attr) :
    LegalSeq pre (as.map Op.add) := by
  induction as generalizing pre with
  | nil => trivial
  | cons a as ih =>
    refine ⟨hpre, ih _ ?_⟩
    intro n hn
    rcases List.mem_append.1 hn with h | h
    · exact hpre n h
    · simp at h

theorem legal_classes (pre : List Op) (cs : List Attr) : LegalSeq pre (cs.map Op.addClass) := by
  induction cs generalizing pre with
  | nil => trivial
  | cons a as ih => exact ⟨trivial, ih _⟩

theorem legal_sets (attrs : List Attr) (n : Nat) (pre sets : List Op)
    (ha : addedAttrs pre = attrs) (hn : totalRows pre = n)
    (hs : ∀ op ∈ sets, ∃ h r v a, op = Op.set h r v ∧ attrs[h]? = some a ∧ r < n ∧
      acceptable (defaultKind a) v) : LegalSeq pre sets := by
  induction sets generalizing pre with
  | nil => trivial
  | cons op ops ih =>
    obtain ⟨h, r, v, a, rfl, h1, h2, h3⟩ := hs op (by simp)
    refine ⟨⟨a, ha ▸ h1, hn ▸ h2, h3⟩, ih _ ?_ ?_ (fun o ho => hs o (by simp [ho]))⟩
    · rw [addedAttrs_append, ha]; simp [addedAttrs]
    · rw [totalRows_snoc, hn]; rfl

theorem mem_rowOps (k r : Nat) (vs : List Bytes) (op : Op) :
    op ∈ rowOps k r vs ↔ ∃ i v, vs[i]? = some v ∧ op = Op.set (k + i) r v := by
  induction vs generalizing k with
  | nil => simp [rowOps]
  | cons x xs ih =>
    simp only [rowOps, List.mem_cons, ih]
    constructor
    · rintro (rfl | ⟨i, v, h1, rfl⟩)
      · exact ⟨0, x, rfl, rfl⟩
      · exact ⟨i + 1, v, by simpa using h1, by rw [show k + 1 + i = k + (i + 1) by omega]⟩
    · rintro ⟨i, v, h1, rfl⟩
      cases i with
      | zero => left; simp at h1; simp [h1]
      | succ i => right; exact ⟨i, v, by simpa using h1, by rw [show k + 1 + i = k + (i + 1) by omega]⟩

theorem lastWrite_eq {ops : List Op} {h r : Nat} {v : Bytes}
    (hex : ∃ op ∈ ops, writes h r op = some v)
    (hu : ∀ op ∈ ops, ∀ v', writes h r op = some v' → v' = v) : lastWrite ops h r = some v := by
  unfold lastWrite
  cases hf : ops.reverse.findSome? (writes h r) with
  | none =>
    obtain ⟨op, h1, h2⟩ := hex
    have := List.findSome?_eq_none_iff.1 hf op (List.mem_reverse.2 h1)
    rw [h2] at this; cases this
  | some v' =>
    obtain ⟨op, h1, h2⟩ := List.exists_of_findSome?_eq_some hf
    rw [hu op (List.mem_reverse.1 h1) v' h2]

/-! ## The copy as a history -/

theorem copyOps_facts (attrs classes : List Attr) (n : Nat) (order : List Nat)
    (w : Nat → List Bytes) :
    (∀ op ∈ copyOps attrs classes n order w, basicOp op = true) ∧
    addedAttrs (copyOps attrs classes n order w) = attrs ∧
    totalRows (copyOps attrs classes n order w) = n := by
  have hrow : ∀ op ∈ order.flatMap (fun r => rowOps 0 r (w r)), ∃ h r v, op = Op.set h r v := by
    intro op hop
    obtain ⟨r, _, hr⟩ := List.mem_flatMap.1 hop
    obtain ⟨i, v, _, e⟩ := (mem_rowOps _ _ _ _).1 hr
    exact ⟨_, _, _, e⟩
  refine ⟨?_, ?_, ?_⟩
  · intro op hop
    simp only [copyOps, List.mem_append, List.mem_map, List.mem_cons] at hop
    rcases hop with ⟨a, _, rfl⟩ | ⟨a, _, rfl⟩ | rfl | h
    · rfl
    · rfl
    · rfl
    · obtain ⟨_, _, _, rfl⟩ := hrow op h; rfl
  · have h1 : addedAttrs (attrs.map Op.add) = attrs := by
      induction attrs with
      | nil => rfl
      | cons a as ih => simp only [addedAttrs, List.map_cons, List.filterMap_cons] at ih ⊢; rw [ih]
    have h2 : addedAttrs (classes.map Op.addClass) = [] := by
      simp [addedAttrs, List.filterMap_map]
    have h3 : addedAttrs (order.flatMap (fun r => rowOps 0 r (w r))) = [] := by
      rw [addedAttrs, List.filterMap_eq_nil_iff]
      intro op hop
      obtain ⟨_, _, _, rfl⟩ := hrow op hop; rfl
    rw [copyOps, addedAttrs_append, addedAttrs_append, h1, h2]
    show attrs ++ ([] ++ addedAttrs ([Op.extend n] ++ order.flatMap fun r => rowOps 0 r (w r))) = attrs
    rw [addedAttrs_append, h3]
    simp [addedAttrs]
  · have h0 : ∀ l : List Op, (∀ op ∈ l, rowsOf op = 0) → totalRows l = 0 := by
      intro l hl
      induction l with
      | nil => rfl
      | cons x xs ih =>
        have := ih (fun o ho => hl o (by simp [ho]))
        simp only [totalRows, List.map_cons, List.sum_cons] at this ⊢
        rw [this, hl x (by simp)]
    have happ : ∀ a b : List Op, totalRows (a ++ b) = totalRows a + totalRows b := by
      intro a b; simp [totalRows]
    rw [copyOps, happ, happ, h0 (attrs.map _) (by simp [rowsOf]), h0 (classes.map _) (by simp [rowsOf])]
    show 0 + (0 + totalRows ([Op.extend n] ++ order.flatMap fun r => rowOps 0 r (w r))) = n
    rw [happ, h0 (order.flatMap _)]
    · simp [totalRows, rowsOf]
    · intro op hop
      obtain ⟨_, _, _, rfl⟩ := hrow op hop; rfl

theorem wellFormed_acceptable {a : Attr} {v : Bytes} (h : wellFormed a v) :
    acceptable (defaultKind a) v := by
  unfold wellFormed at h
  unfold defaultKind
  split at h
  · rename_i hb
    rw [if_pos hb]
    rcases h with rfl | rfl <;> simp [acceptable]
  · rename_i hb
    rw [if_neg hb]; exact h

theorem wellFormed_cellValue {a : Attr} {v : Bytes} (h : wellFormed a v) :
    cellValue (defaultKind a) (some v) = v := by
  unfold wellFormed at h
  unfold defaultKind
  split at h
  · rename_i hb
    rw [if_pos hb]
    rcases h with rfl | rfl <;> simp [cellValue]
  · rename_i hb
    rw [if_neg hb]; rfl

/-- Reading from default storage gives a well-formed value. -/
theorem group_get_wellFormed {g : Group} {a : Attr} {c r : Nat} {v : Bytes}
    (hk : g.kind = defaultKind a) (h : g.get c r = Res.ok v) : wellFormed a v := by
  unfold Group.get at h
  unfold wellFormed
  unfold defaultKind at hk
  split
  · rename_i hb
    rw [if_pos hb] at hk
    simp only [hk] at h
    split at h
    · cases h
    · split at h <;> simp only [Res.ok.injEq] at h
      · right; exact h.symm
      · left; exact h.symm
  · rename_i hb
    rw [if_neg hb] at hk
    simp only [hk] at h
    split at h
    · cases h
    · rename_i hle
      simp only [Res.ok.injEq] at h
      rw [← h, List.length_take, List.length_drop]
      omega

theorem dense_typed {rows : Nat} {W : Nat → Nat → Option Bytes} {st : St} (I : Inv rows W st)
    (B : BasicInv st) (hd : (Grid.dense st.d).distinct) : (Grid.dense st.d).typed rows := by
  intro a ha r hr
  obtain ⟨s, h1, h2, h3⟩ := dense_lookup I hd ha
  have hc := dense_cell I hd h3 hr
  rw [h2] at hc
  obtain ⟨h, hh, hhs⟩ := List.getElem_of_mem h3
  have hk := B.stored h s (by rw [List.getElem?_eq_getElem hh, hhs])
  rw [h2] at hk
  unfold kindOf at hk
  unfold Dense.get at hc
  cases hp : s.pond with
  | none => rw [hp] at hk; cases hk
  | some id =>
    rw [hp] at hk
    simp only [hp] at hc
    cases hg : st.d.ags[id]? with
    | none => rw [Option.bind_some, hg] at hk; cases hk
    | some g =>
      simp only [Option.bind_some, hg, Option.map_some, Option.some.injEq] at hk
      simp only [hg] at hc
      exact group_get_wellFormed hk hc

end Golearn
