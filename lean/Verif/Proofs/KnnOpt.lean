import Verif.Proofs.KnnSearch
import Verif.Proofs.DenseTable
import Mathlib.Algebra.Ring.Defs
import Mathlib.Algebra.Order.Ring.Defs

/-! # Lemmas: the optimised Euclidean path -/

namespace Golearn

/-! ## Group names -/

theorem groupsNamed_add {pg : Nat} {d : Dense} (N : d.GroupsNamed) {a : Attr} {p : Dense × Spec}
    (h : d.addAttribute pg a = Res.ok p) : p.1.GroupsNamed := by
  unfold Dense.addAttribute at h
  split at h
  · cases h
  · obtain ⟨c1, c2, c3, c4, _⟩ := chooseGroup_frame pg d a
    generalize hcg : d.chooseGroup pg a = cg at h c1 c2 c3 c4
    obtain ⟨d1, ag, isBin⟩ := cg
    simp only at h c1 c2 c3 c4
    have N1 : d1.GroupsNamed := ⟨c4 ▸ N.names, by rw [c4, c1]; exact N.groups⟩
    rw [Res.bind_eq_ok] at h
    obtain ⟨d2, hd2, h⟩ := h
    have N2 : d2.GroupsNamed := by
      split at hd2
      · rw [Res.ok.injEq] at hd2
        exact hd2 ▸ N1
      · rename_i hnone
        obtain ⟨_, _, _, _, _, hm, hg⟩ := createGroup_ok hd2
        have hnotin : ag ∉ d1.agMap.map Prod.fst := by
          rw [← GoMap.isSome_iff_mem, hnone]; simp
        have hset : d1.agMap.set ag d1.ags.length = d1.agMap ++ [(ag, d1.ags.length)] := by
          clear hm hd2 h N1 N c4 hcg
          generalize d1.agMap = m at hnotin
          induction m with
          | nil => rfl
          | cons q qs ih =>
            obtain ⟨k, v⟩ := q
            unfold GoMap.set
            rw [List.map_cons, List.mem_cons, not_or] at hnotin
            rw [if_neg (Ne.symm hnotin.1), ih hnotin.2]
            rfl
        rw [hset] at hm
        refine ⟨?_, ?_⟩
        · rw [hm, List.map_append, List.map_singleton, List.nodup_append]
          refine ⟨N1.names, by simp, ?_⟩
          intro x hx y hy
          rw [List.mem_singleton.1 hy]
          rintro rfl
          exact hnotin hx
        · rw [hm, hg, List.map_append, List.length_append, List.length_singleton, List.range_succ]
          exact N1.groups.append_right _
    split at h
    · cases h
    · unfold Dense.pushAttr at h
      split at h
      · cases h
      · rw [Res.ok.injEq] at h
        subst h
        exact ⟨N2.names, by simpa using N2.groups⟩

theorem groupsNamed_run {pg : Nat} {ops : List Op} {st : St} (hb : ∀ op ∈ ops, basicOp op = true)
    (hrun : run pg ops = Res.ok st) : st.d.GroupsNamed := by
  induction ops using List.reverseRecOn generalizing st with
  | nil =>
    simp only [run, List.foldl_nil, Res.ok.injEq] at hrun
    subst hrun
    exact ⟨by simp [St.init, Dense.new], by simp [St.init, Dense.new]⟩
  | append_singleton ops op ih =>
    rw [run_snoc, Res.bind_eq_ok] at hrun
    obtain ⟨st0, h0, h1⟩ := hrun
    have N0 := ih (fun o ho => hb o (by simp [ho])) h0
    have hop := hb op (by simp)
    cases op with
    | create name size => cases hop
    | addTo a ag => cases hop
    | add a =>
      simp only [step, Res.map_eq_ok] at h1
      obtain ⟨p, h1, rfl⟩ := h1
      exact groupsNamed_add N0 h1
    | addClass a =>
      simp only [step, absorb] at h1
      unfold Dense.addClassAttribute at h1
      cases hg : st0.d.getAttribute a with
      | ok s => simp only [hg, Res.map, Res.bind, Res.ok.injEq] at h1; subst h1; exact ⟨N0.names, N0.groups⟩
      | err => simp only [hg, Res.map, Res.bind, Res.ok.injEq] at h1; subst h1; exact N0
      | panic => simp only [hg, Res.map, Res.bind] at h1; cases h1
    | removeClass a =>
      simp only [step, absorb] at h1
      unfold Dense.removeClassAttribute at h1
      cases hg : st0.d.getAttribute a with
      | ok s => simp only [hg, Res.map, Res.bind, Res.ok.injEq] at h1; subst h1; exact ⟨N0.names, N0.groups⟩
      | err => simp only [hg, Res.map, Res.bind, Res.ok.injEq] at h1; subst h1; exact N0
      | panic => simp only [hg, Res.map, Res.bind] at h1; cases h1
    | extend n =>
      simp only [step, Res.ok.injEq] at h1
      subst h1
      exact ⟨N0.names, by simpa [Dense.extend] using N0.groups⟩
    | set h row v =>
      simp only [step] at h1
      split at h1
      · cases h1
      · rename_i s hs
        rw [Res.map_eq_ok] at h1
        obtain ⟨d', h1, rfl⟩ := h1
        unfold Dense.set at h1
        split at h1
        · cases h1
        · split at h1
          · cases h1
          · rw [Res.map_eq_ok] at h1
            obtain ⟨g', _, h2⟩ := h1
            subst h2
            exact ⟨N0.names, by simpa using N0.groups⟩

/-- Listing the groups by name lists all attributes, in some order. -/
theorem GroupsNamed.attrs {d : Dense} (N : d.GroupsNamed) {names : List String}
    (hn : names.Perm (d.agMap.map Prod.fst)) :
    (∀ n ∈ names, ∃ id g, d.agMap.get? n = some id ∧ d.ags[id]? = some g ∧ d.groupNamed n = some g) ∧
    (names.filterMap d.groupNamed).Perm d.ags := by
  have hsome : ∀ n id, d.agMap.get? n = some id → ∃ g, d.ags[id]? = some g := by
    intro n id h
    have hm := (GoMap.get?_of_mem _ N.names n id).2 h
    have hr := N.groups.subset (List.mem_map.2 ⟨_, hm, rfl⟩)
    exact ⟨_, List.getElem?_eq_getElem (List.mem_range.1 hr)⟩
  constructor
  · intro n hm
    have h1 := (GoMap.isSome_iff_mem d.agMap n).2 (hn.subset hm)
    obtain ⟨id, h1⟩ := Option.isSome_iff_exists.1 h1
    obtain ⟨g, hg⟩ := hsome n id h1
    exact ⟨id, g, h1, hg, by simp [Dense.groupNamed, h1, hg]⟩
  · refine (hn.filterMap _).trans ?_
    have e1 : (d.agMap.map Prod.fst).filterMap d.groupNamed = (d.agMap.map Prod.snd).filterMap fun i => d.ags[i]? := by
      rw [List.filterMap_map, List.filterMap_map]
      apply List.filterMap_congr
      intro p hp
      have h := (GoMap.get?_of_mem _ N.names p.1 p.2).1 hp
      simp [Dense.groupNamed, h]
    rw [e1]
    refine (N.groups.filterMap _).trans ?_
    rw [filterMap_range_getElem?]

/-! ## Same layout -/

theorem strictLoop_true {l1 l2 : List Attr} (h : strictLoop l1 l2 = Res.ok true) :
    l1.length ≤ l2.length ∧ ∀ (j : Nat) (a : Attr), l1[j]? = some a → ∃ b, l2[j]? = some b ∧ a.equals b = true := by
  induction l1 generalizing l2 with
  | nil => exact ⟨Nat.zero_le _, by simp⟩
  | cons a as ih =>
    cases l2 with
    | nil => cases h
    | cons b bs =>
      unfold strictLoop at h
      split at h
      · rename_i he
        obtain ⟨i1, i2⟩ := ih h
        refine ⟨by simpa using i1, ?_⟩
        intro j x hj
        cases j with
        | zero => exact ⟨b, rfl, by simpa [← (by simpa using hj : a = x)] using he⟩
        | succ j => exact i2 j x (by simpa using hj)
      · cases h

theorem strictGroups_true {d1 d2 : Dense} {names : List String} (h : strictGroups d1 d2 names = Res.ok true) :
    ∀ n ∈ names, ∃ g1 g2, d1.groupNamed n = some g1 ∧ d2.groupNamed n = some g2 ∧
      strictLoop g1.attrs g2.attrs = Res.ok true := by
  induction names with
  | nil => simp
  | cons n ns ih =>
    unfold strictGroups at h
    split at h
    · rename_i g1 g2 e1 e2
      rw [Res.bind_eq_ok] at h
      obtain ⟨b, h1, h2⟩ := h
      cases b with
      | false => cases h2
      | true =>
        intro m hm
        rcases List.mem_cons.1 hm with rfl | hm
        · exact ⟨g1, g2, e1, e2, h1⟩
        · exact ih h2 m hm
    · cases h

/-- Both grids have the same groups, with equal attributes in the same positions. -/
theorem same_layout {pr tr : Dense} (Np : pr.GroupsNamed) (Nt : tr.GroupsNamed) {names : List String}
    (hn : names.Perm (pr.agMap.map Prod.fst))
    (hs : checkStrictlyCompatible (.dense pr) (.dense tr) names = Res.ok true)
    (hlen : pr.allAttributes.length = tr.allAttributes.length) :
    ∀ n ∈ names, ∃ gp gt, pr.groupNamed n = some gp ∧ tr.groupNamed n = some gt ∧
      gp.attrs.length = gt.attrs.length ∧
      ∀ (j : Nat) (a : Attr), gp.attrs[j]? = some a → ∃ b, gt.attrs[j]? = some b ∧ a.equals b = true := by
  unfold checkStrictlyCompatible at hs
  simp only at hs
  split at hs
  · rename_i c1
    split at hs
    · rename_i c2
      have hg := strictGroups_true hs
      rw [List.all_eq_true] at c1 c2
      have hnt : names.Perm (tr.agMap.map Prod.fst) := by
        refine (List.perm_ext_iff_of_nodup (hn.nodup_iff.2 Np.names) Nt.names).2 fun n => ?_
        rw [hn.mem_iff]
        constructor
        · intro h; exact (GoMap.isSome_iff_mem _ _).1 (c1 n h)
        · intro h; exact (GoMap.isSome_iff_mem _ _).1 (c2 n h)
      have l1 : ((names.filterMap pr.groupNamed).map fun g => g.attrs.length).sum = pr.allAttributes.length := by
        rw [Dense.allAttributes, List.length_flatMap]
        exact ((GroupsNamed.attrs Np hn).2.map _).sum_eq
      have l2 : ((names.filterMap tr.groupNamed).map fun g => g.attrs.length).sum = tr.allAttributes.length := by
        rw [Dense.allAttributes, List.length_flatMap]
        exact ((GroupsNamed.attrs Nt hnt).2.map _).sum_eq
      have key : ∀ ns : List String, (∀ n ∈ ns, n ∈ names) →
          ((ns.filterMap pr.groupNamed).map fun g => g.attrs.length).sum ≤
            ((ns.filterMap tr.groupNamed).map fun g => g.attrs.length).sum ∧
          (((ns.filterMap pr.groupNamed).map fun g => g.attrs.length).sum =
            ((ns.filterMap tr.groupNamed).map fun g => g.attrs.length).sum →
            ∀ n ∈ ns, ∀ gp gt, pr.groupNamed n = some gp → tr.groupNamed n = some gt →
              gp.attrs.length = gt.attrs.length) := by
        intro ns
        induction ns with
        | nil => simp
        | cons n ns ih =>
          intro h
          obtain ⟨i1, i2⟩ := ih (fun m hm => h m (List.mem_cons_of_mem _ hm))
          obtain ⟨gp, gt, e1, e2, e3⟩ := hg n (h n List.mem_cons_self)
          have hle := (strictLoop_true e3).1
          rw [List.filterMap_cons_some e1, List.filterMap_cons_some e2, List.map_cons, List.map_cons, List.sum_cons,
            List.sum_cons]
          refine ⟨by omega, ?_⟩
          intro heq m hm gp' gt' f1 f2
          rcases List.mem_cons.1 hm with rfl | hm
          · rw [e1, Option.some.injEq] at f1; rw [e2, Option.some.injEq] at f2
            subst f1; subst f2
            omega
          · exact i2 (by omega) m hm gp' gt' f1 f2
      intro n hm
      obtain ⟨gp, gt, e1, e2, e3⟩ := hg n hm
      exact ⟨gp, gt, e1, e2, (key names (fun _ h => h)).2 (by rw [l1, l2, hlen]) n hm gp gt e1 e2, (strictLoop_true e3).2⟩
    · cases hs
  · cases hs

/-! ## The storage -/

section
variable {R : Type} [CommRing R] [LinearOrder R]

/-- A double in the storage of a group is the number in the cell. -/
theorem doubleAt_spec (val : U64 → R) {d : Dense} {rows : Nat} (D : DenseOK rows d) {id : Nat} {g : Group}
    (hg : d.ags[id]? = some g) {j : Nat} {a : Attr} (ha : g.attrs[j]? = some a) (hf : a.isFloat = true) {r : Nat}
    (hr : r < rows) : doubleAt val g.alloc (r * g.attrs.length + j) = (Grid.dense d).number val a r := by
  obtain ⟨hd, W, hs, I, B⟩ := D
  obtain ⟨h, hh⟩ := I.complete id g j a hg ha
  have hk := B h _ hh
  have hkind : g.kind = .fixed 8 := by
    unfold kindOf at hk
    have e : Option.map Group.kind (d.ags[id]?) = some (defaultKind a) := hk
    rw [hg, Option.map_some, Option.some.injEq] at e
    rw [e]
    unfold defaultKind
    have : a.isBin = false := by
      unfold Attr.isFloat at hf; unfold Attr.isBin
      split at hf <;> simp_all
    rw [this]; rfl
  have hc := dense_cell I hd (s := ⟨some id, j, a⟩) (List.mem_of_getElem? hh) hr
  have hget : d.get ⟨some id, j, a⟩ r = g.get j r := by
    unfold Dense.get
    simp [hg]
  have hc' : g.get j r = Res.ok ((Grid.dense d).cell a r) := hget ▸ hc
  unfold Group.get at hc'
  simp only [hkind, Group.offset, Group.rowSize] at hc'
  split at hc'
  · cases hc'
  · rw [Res.ok.injEq] at hc'
    unfold doubleAt Grid.number
    rw [← hc']
    have : (r * g.attrs.length + j) * 8 = r * (g.attrs.length * 8) + j * 8 := by rw [Nat.add_mul, Nat.mul_assoc]
    rw [this]
    cases unpackFloatBits (List.take 8 (List.drop (r * (g.attrs.length * 8) + j * 8) g.alloc)) <;> rfl

theorem kernelInner_spec (pred train : Nat → R) (cols row i n : Nat) (acc : R) :
    kernelInner pred train cols row i n acc = acc +
      ((List.range n).map fun j => (pred (row * cols + j) - train (i * cols + j)) *
        (pred (row * cols + j) - train (i * cols + j))).sum := by
  induction n with
  | zero => simp [kernelInner]
  | succ n ih =>
    unfold kernelInner
    simp only
    rw [ih, List.range_succ, List.map_append, List.sum_append]
    simp [add_assoc]

/-- The sum of the squares of the differences in the given columns. -/
def sqDiff (val : U64 → R) (pr tr : Dense) (as : List Attr) (row i : Nat) : R :=
  (as.map fun a => ((Grid.dense pr).number val a row - (Grid.dense tr).number val a i) *
    ((Grid.dense pr).number val a row - (Grid.dense tr).number val a i)).sum

omit [LinearOrder R] in
theorem sqDiff_eq (val : U64 → R) (pr tr : Dense) (as : List Attr) (row i : Nat) :
    sqDiff val pr tr as row i = sqDist ((Grid.dense pr).point val as row) ((Grid.dense tr).point val as i) := by
  unfold sqDiff sqDist Grid.point
  rw [List.zipWith_map_left, List.zipWith_map_right, List.zipWith_self]

/-- The kernel adds the squared differences of one group. -/
theorem kernel_group (val : U64 → R) {pr tr : Dense} {nW nT : Nat} (Dp : DenseOK nW pr) (Dt : DenseOK nT tr)
    {idp idt : Nat} {gp gt : Group} (hp : pr.ags[idp]? = some gp) (ht : tr.ags[idt]? = some gt)
    (hlen : gp.attrs.length = gt.attrs.length)
    (heq : ∀ (j : Nat) (a : Attr), gp.attrs[j]? = some a → ∃ b, gt.attrs[j]? = some b ∧ a.equals b = true)
    (hf : ∀ a ∈ gp.attrs, a.isFloat = true)
    (hfind : ∀ a ∈ gp.attrs, ∀ b ∈ tr.allAttributes, a.equals b = true → tr.getAttribute a = tr.getAttribute b)
    {row : Nat} (hrow : row < nW) (out : List (R × Nat)) (hout : out.length = nT) :
    euclideanKernel (doubleAt val gp.alloc) (doubleAt val gt.alloc) gp.attrs.length row out =
      out.zipIdx.map fun p => (p.1.1 + sqDiff val pr tr gp.attrs row p.2, p.2) := by
  unfold euclideanKernel
  apply List.map_congr_left
  rintro ⟨q, i⟩ hq
  have hi : i < nT := by
    have := List.mem_zipIdx hq
    omega
  rw [kernelInner_spec]
  congr 2
  unfold sqDiff
  have hr : gp.attrs = (List.range gp.attrs.length).filterMap fun j => gp.attrs[j]? := (filterMap_range_getElem? _).symm
  have e : (gp.attrs.map fun a => ((Grid.dense pr).number val a row - (Grid.dense tr).number val a i) *
      ((Grid.dense pr).number val a row - (Grid.dense tr).number val a i)) =
      (List.range gp.attrs.length).map fun j =>
        (doubleAt val gp.alloc (row * gp.attrs.length + j) - doubleAt val gt.alloc (i * gp.attrs.length + j)) *
        (doubleAt val gp.alloc (row * gp.attrs.length + j) - doubleAt val gt.alloc (i * gp.attrs.length + j)) := by
    apply List.ext_getElem
    · simp
    · intro j h1 h2
      rw [List.getElem_map, List.getElem_map, List.getElem_range]
      have hj : j < gp.attrs.length := by simpa using h1
      have hga : gp.attrs[j]? = some gp.attrs[j] := List.getElem?_eq_getElem hj
      obtain ⟨b, hb, he⟩ := heq j _ hga
      have hfa := hf _ (List.getElem_mem hj)
      have e1 := doubleAt_spec val Dp hp hga hfa hrow
      have e2 := doubleAt_spec val Dt ht hb (by rw [← equals_isFloat he]; exact hfa) hi
      have e3 : (Grid.dense tr).number val b i = (Grid.dense tr).number val gp.attrs[j] i := by
        have hball : b ∈ tr.allAttributes := by
          unfold Dense.allAttributes
          exact List.mem_flatMap.2 ⟨gt, List.mem_of_getElem? ht, List.mem_of_getElem? hb⟩
        have := hfind _ (List.getElem_mem hj) b hball he
        unfold Grid.number Grid.cell
        simp only [Grid.getAttribute, this]
      rw [← hlen] at e2
      rw [e1, e2, e3]
  rw [← e]

/-- The attributes of a list of groups. -/
def attrsOf (d : Dense) (names : List String) : List Attr :=
  names.flatMap fun n => match d.groupNamed n with
    | some g => g.attrs
    | none => []

omit [LinearOrder R] in
theorem sqDiff_append (val : U64 → R) (pr tr : Dense) (as bs : List Attr) (row i : Nat) :
    sqDiff val pr tr (as ++ bs) row i = sqDiff val pr tr as row i + sqDiff val pr tr bs row i := by
  unfold sqDiff
  rw [List.map_append, List.sum_append]

/-- Layout facts about the groups that are used. -/
structure OptGroup (pr tr : Dense) (n : String) (gp gt : Group) : Prop where
  pred : pr.groupNamed n = some gp
  train : tr.groupNamed n = some gt
  predIn : ∃ id : Nat, pr.ags[id]? = some gp
  trainIn : ∃ id : Nat, tr.ags[id]? = some gt
  len : gp.attrs.length = gt.attrs.length
  eq : ∀ (j : Nat) (a : Attr), gp.attrs[j]? = some a → ∃ b, gt.attrs[j]? = some b ∧ a.equals b = true
  float : ∀ a ∈ gp.attrs, a.isFloat = true

theorem optFold_spec (val : U64 → R) {pr tr : Dense} {nW nT : Nat} (Dp : DenseOK nW pr) (Dt : DenseOK nT tr)
    {row : Nat} (hrow : row < nW) (names : List String) (hg : ∀ n ∈ names, ∃ gp gt, OptGroup pr tr n gp gt)
    (out : List (R × Nat)) (acc : Nat → R) (hout : out.map Prod.fst = (List.range nT).map acc) :
    let res := names.foldl (fun out n =>
      match tr.groupNamed n, pr.groupNamed n with
      | some gt, some gp => euclideanKernel (doubleAt val gp.alloc) (doubleAt val gt.alloc) gp.attrs.length row out
      | _, _ => out) out
    res.map Prod.fst = (List.range nT).map (fun i => acc i + sqDiff val pr tr (attrsOf pr names) row i) ∧
    (names ≠ [] ∨ out.map Prod.snd = List.range nT → res.map Prod.snd = List.range nT) := by
  induction names generalizing out acc with
  | nil =>
    refine ⟨?_, ?_⟩
    · simp [attrsOf, sqDiff, hout]
    · intro h
      rcases h with h | h
      · exact absurd rfl h
      · exact h
  | cons n ns ih =>
    obtain ⟨gp, gt, G⟩ := hg n List.mem_cons_self
    obtain ⟨idp, hp⟩ := G.predIn
    obtain ⟨idt, ht⟩ := G.trainIn
    have hlen : out.length = nT := by
      have := congrArg List.length hout
      simpa using this
    have hk := kernel_group val Dp Dt hp ht G.len G.eq G.float
      (fun a _ b _ he => dense_getAttribute_equals tr he) hrow out hlen
    simp only [List.foldl_cons, G.pred, G.train]
    rw [hk]
    set out' := out.zipIdx.map fun p => (p.1.1 + sqDiff val pr tr gp.attrs row p.2, p.2) with hout'
    have h1 : out'.map Prod.fst = (List.range nT).map fun i => acc i + sqDiff val pr tr gp.attrs row i := by
      apply List.ext_getElem
      · simp [hout', hlen]
      · intro i a1 a2
        have hi : i < out.length := by simpa [hout'] using a1
        have e : out[i].1 = acc i := by
          have := congrArg (fun l => l[i]?) hout
          simpa [hi, hlen ▸ hi] using this
        simp [hout', e]
    have h2 : out'.map Prod.snd = List.range nT := by
      rw [hout', List.map_map]
      apply List.ext_getElem
      · simp [hlen]
      · intro i a1 a2
        simp
    obtain ⟨i1, i2⟩ := ih (fun m hm => hg m (List.mem_cons_of_mem _ hm)) out' _ h1
    refine ⟨?_, fun _ => i2 (Or.inr h2)⟩
    rw [i1]
    apply List.map_congr_left
    intro i _
    have e : attrsOf pr (n :: ns) = gp.attrs ++ attrsOf pr ns := by
      unfold attrsOf
      rw [List.flatMap_cons, G.pred]
    rw [e, sqDiff_append, add_assoc]

theorem optDistances_spec (val : U64 → R) {pr tr : Dense} {nW nT : Nat} (Dp : DenseOK nW pr) (Dt : DenseOK nT tr)
    {row : Nat} (hrow : row < nW) (names : List String) (hne : names ≠ [])
    (hg : ∀ n ∈ names, ∃ gp gt, OptGroup pr tr n gp gt) (old : List (R × Nat)) (hold : old.length = nT) :
    optDistances val tr pr row old names =
      (List.range nT).map fun i => (sqDiff val pr tr (attrsOf pr names) row i, i) := by
  obtain ⟨h1, h2⟩ := optFold_spec val Dp Dt hrow names hg (old.map fun p => (0, p.2)) (fun _ => 0) (by
    rw [List.map_map]
    apply List.ext_getElem
    · simp [hold]
    · intro i a1 a2; simp)
  have h2 := h2 (Or.inl hne)
  have hd : optDistances val tr pr row old names = names.foldl (fun out n =>
      match tr.groupNamed n, pr.groupNamed n with
      | some gt, some gp => euclideanKernel (doubleAt val gp.alloc) (doubleAt val gt.alloc) gp.attrs.length row out
      | _, _ => out) (old.map fun p => (0, p.2)) := rfl
  rw [hd]
  generalize names.foldl _ (old.map fun p => ((0 : R), p.2)) = res at h1 h2
  apply List.ext_getElem
  · have := congrArg List.length h1
    simpa using this
  · intro i a1 a2
    have e1 := congrArg (fun l => l[i]?) h1
    have e2 := congrArg (fun l => l[i]?) h2
    have hi : i < nT := by simpa using a2
    simp [a1, hi] at e1 e2
    rw [List.getElem_map, List.getElem_range]
    exact Prod.ext e1 e2

omit [CommRing R] in
/-- The first of the sorted distances. -/
theorem sorted_nearest {nT k : Nat} (hk : k ≤ nT) {pt : Nat → List R} {x : List R} {dist : List R → List R → R}
    {srtD : List (R × Nat) → List (R × Nat)} (hs : ∀ l, (srtD l).Perm l ∧ (srtD l).Pairwise fun p q => p.1 ≤ q.1) :
    let vec := srtD ((List.range nT).map fun i => (dist x (pt i), i))
    vec.length = nT ∧ Nearest ((List.range nT).map pt) dist x k ((vec.take k).map fun p => (p.2, p.1)) := by
  intro vec
  obtain ⟨hp, hsort⟩ := hs ((List.range nT).map fun i => (dist x (pt i), i))
  have hlen : vec.length = nT := by rw [hp.length_eq]; simp
  refine ⟨hlen, ⟨by simp [hlen, hk], ?_, ?_, ?_, ?_⟩⟩
  · rw [List.map_map]
    show ((vec.take k).map Prod.snd).Nodup
    have h1 : (vec.map Prod.snd).Perm (List.range nT) := by
      refine (hp.map Prod.snd).trans ?_
      rw [List.map_map]
      exact List.Perm.of_eq (List.map_id _)
    exact (h1.nodup_iff.2 List.nodup_range).sublist ((List.take_sublist k vec).map _)
  · intro p hpm
    obtain ⟨q, hq, rfl⟩ := List.mem_map.1 hpm
    obtain ⟨i, hi, rfl⟩ := List.mem_map.1 (hp.subset (List.mem_of_mem_take hq))
    have := List.mem_range.1 hi
    exact ⟨by simpa using this, by simp [this]⟩
  · rw [List.pairwise_map]
    exact hsort.sublist (List.take_sublist _ _)
  · intro q hq hqo p hpm
    obtain ⟨p0, hp0, rfl⟩ := List.mem_map.1 hpm
    have hqn : q < nT := by simpa using hq
    have hmem : (dist x (pt q), q) ∈ vec := hp.symm.subset (List.mem_map.2 ⟨q, List.mem_range.2 hqn, rfl⟩)
    have hs' : vec.Pairwise fun p q => p.1 ≤ q.1 := hsort
    rw [← List.take_append_drop k vec] at hmem hs'
    rcases List.mem_append.1 hmem with h | h
    · exfalso
      apply hqo
      rw [List.map_map]
      exact List.mem_map.2 ⟨_, h, rfl⟩
    · rw [List.pairwise_append] at hs'
      have := hs'.2.2 p0 hp0 _ h
      simpa [hqn] using this

theorem optLoop_spec {fo : FloatOps} {parse : String → Option U64} {val : U64 → R}
    {srtD : List (R × Nat) → List (R × Nat)} (hs : ∀ l, (srtD l).Perm l ∧ (srtD l).Pairwise fun p q => p.1 ≤ q.1)
    {ord : Nat → List String → List String} (hord : ∀ r l, (ord r l).Perm l) {k nT nW : Nat} (hk : k ≤ nT) (hk0 : 0 < k)
    {tr pr : Dense} (Dp : DenseOK nW pr) (Dt : DenseOK nT tr) {lab : Nat → String}
    (hlab : ∀ q, q < nT → getClass fo (.dense tr) q = Res.ok (lab q)) {names : Nat → List String} {num : List Attr}
    (hne : ∀ r, names r ≠ []) (hg : ∀ r, ∀ n ∈ names r, ∃ gp gt, OptGroup pr tr n gp gt)
    (hperm : ∀ r, (attrsOf pr (names r)).Perm num) {p : Nat} {nm : String}
    (rows done : List Nat) (hlt : ∀ r ∈ rows, r < nW) (hnd : rows.Nodup) (hdis : ∀ r ∈ done, r ∉ rows)
    (hdl : ∀ r ∈ done, r < nW) (ret : Dense) (vs : List String)
    (hv : PredVec ret nW ⟨p, .cat nm vs⟩) (hb : vs.length + rows.length ≤ 2 ^ 64) (vec : List (R × Nat))
    (hvec : vec.length = nT) (m : GoMap String Nat)
    (hdone : ∀ r ∈ done, ∃ out c, Nearest ((List.range nT).map ((Grid.dense tr).point val num)) sqDist
      ((Grid.dense pr).point val num r) k out ∧ Majority (out.map fun p => lab p.1) c ∧
      getClass fo (.dense ret) r = Res.ok c) :
    ∃ d, optLoop fo parse val srtD ord k tr pr names rows ret vec m = Res.ok d ∧ d.maxRow = nW ∧
      ∀ r, r ∈ done ∨ r ∈ rows → ∃ out c, Nearest ((List.range nT).map ((Grid.dense tr).point val num)) sqDist
        ((Grid.dense pr).point val num r) k out ∧ Majority (out.map fun p => lab p.1) c ∧
        getClass fo (.dense d) r = Res.ok c := by
  induction rows generalizing done ret vs vec m with
  | nil => exact ⟨ret, rfl, hv.rows, fun r hr => hdone r (by simpa using hr)⟩
  | cons r rs ih =>
    have hr := hlt r List.mem_cons_self
    have hd := optDistances_spec val Dp Dt hr (names r) (hne r) (hg r) vec hvec
    have hd' : optDistances val tr pr r vec (names r) =
        (List.range nT).map fun i => (sqDist ((Grid.dense pr).point val num r) ((Grid.dense tr).point val num i), i) := by
      rw [hd]
      apply List.map_congr_left
      intro i _
      rw [← sqDiff_eq]
      congr 1
      exact ((hperm r).map _).sum_eq
    obtain ⟨n1, n2⟩ := sorted_nearest (k := k) hk (pt := (Grid.dense tr).point val num)
      (x := (Grid.dense pr).point val num r) (dist := sqDist) hs
    rw [← hd'] at n1 n2
    set vec' := srtD (optDistances val tr pr r vec (names r)) with hvec'
    set out := (vec'.take k).map fun p => (p.2, p.1) with hout
    have hrows : (vec'.take k).map Prod.snd = out.map Prod.fst := by
      rw [hout, List.map_map]; rfl
    have hone : out ≠ [] := by
      intro h
      have := n2.length
      rw [h, List.length_nil] at this
      omega
    obtain ⟨m', c, f1, f2⟩ := vote_spec (fo := fo) (train := .dense tr) (lab := lab) (hord r) m (out.map Prod.fst)
      (by simpa using hone)
      (by
        intro v hv
        obtain ⟨p, hp, rfl⟩ := List.mem_map.1 hv
        exact hlab _ (by simpa using (n2.real p hp).1))
    rw [List.map_map] at f2
    rw [List.length_cons] at hb
    obtain ⟨d', vs', g1, g2, _, g4, _, g6, g7⟩ := hv.setClass (fo := fo) (parse := parse) hr (by omega) c
    obtain ⟨d, h1, h2, h3⟩ := ih (r :: done) (fun x hx => hlt x (List.mem_cons_of_mem _ hx)) (List.nodup_cons.1 hnd).2
      (by
        intro x hx
        rcases List.mem_cons.1 hx with rfl | hx
        · exact (List.nodup_cons.1 hnd).1
        · exact fun h => hdis x hx (List.mem_cons_of_mem _ h))
      (by
        intro x hx
        rcases List.mem_cons.1 hx with rfl | hx
        · exact hr
        · exact hdl x hx)
      d' vs' g2 (by omega) vec' n1 m'
      (by
        intro x hx
        rcases List.mem_cons.1 hx with rfl | hx
        · exact ⟨out, c, n2, f2, g6⟩
        · obtain ⟨out', c', k1, k2, k3⟩ := hdone x hx
          refine ⟨out', c', k1, k2, g7 x (hdl x hx) ?_ c' k3⟩
          intro he
          exact hdis x hx (he ▸ List.mem_cons_self))
    refine ⟨d, ?_, h2, ?_⟩
    · unfold optLoop
      simp only
      rw [← hvec', if_neg (by omega), hrows, f1]
      simp only [Res.bind_ok, g1]
      exact h1
    · intro x hx
      refine h3 x ?_
      rcases hx with hx | hx
      · exact Or.inl (List.mem_cons_of_mem _ hx)
      · rcases List.mem_cons.1 hx with rfl | hx
        · exact Or.inl List.mem_cons_self
        · exact Or.inr hx

omit [CommRing R] [LinearOrder R] in
/-- What the check of the optimised path gives for the groups that are used. -/
theorem optGroups_features {pr tr : Dense} (Np : pr.GroupsNamed) (Nt : tr.GroupsNamed) {names : List String}
    (hn : names.Perm (pr.agMap.map Prod.fst)) (hu : canUseOptimisations pr tr names = Res.ok true)
    (hlen : pr.allAttributes.length = tr.allAttributes.length) {cls ct : Attr} (hc : pr.allClassAttributes = [cls])
    (hcf : cls.isFloat = false) (ht : tr.allClassAttributes = [ct]) (he : ct.equals cls = true) :
    (∀ n ∈ optGroups tr names, ∃ gp gt, OptGroup pr tr n gp gt) ∧
    (attrsOf pr (optGroups tr names)).Perm (pr.allAttributes.filter Attr.isFloat) := by
  unfold canUseOptimisations at hu
  rw [Res.map_eq_ok] at hu
  obtain ⟨b, hs, hu⟩ := hu
  simp only [Bool.and_eq_true] at hu
  obtain ⟨⟨rfl, hgr⟩, hfl⟩ := hu
  rw [List.all_eq_true] at hgr hfl
  have hnorm : ∀ a, a ∈ pr.normalAttrs ↔ a ∈ pr.allAttributes ∧ a ≠ cls := by
    intro a
    have := (C27_references pr.allAttributes pr.allClassAttributes _ _ (List.Perm.refl _) (List.Perm.refl _)).2.2.2 a
    rw [hc, List.mem_singleton] at this
    unfold Dense.normalAttrs
    rw [hc]; exact this
  have lay := same_layout Np Nt hn hs hlen
  obtain ⟨inP, permP⟩ := GroupsNamed.attrs Np hn
  have mk : ∀ n ∈ names, ∃ gp gt, pr.groupNamed n = some gp ∧ tr.groupNamed n = some gt ∧
      (∃ id : Nat, pr.ags[id]? = some gp) ∧ (∃ id : Nat, tr.ags[id]? = some gt) ∧ gp.attrs.length = gt.attrs.length ∧
      (∀ (j : Nat) (a : Attr), gp.attrs[j]? = some a → ∃ b, gt.attrs[j]? = some b ∧ a.equals b = true) ∧
      (n ∈ optGroups tr names → ∀ a ∈ gp.attrs, a.isFloat = true) ∧
      (n ∉ optGroups tr names → ∀ a ∈ gp.attrs, a.isFloat = false) := by
    intro n hm
    obtain ⟨gp, gt, e1, e2, e3, e4⟩ := lay n hm
    obtain ⟨id, g, _, i2, i3⟩ := inP n hm
    rw [e1, Option.some.injEq] at i3
    subst i3
    have hgt : ∃ id : Nat, tr.ags[id]? = some gt := by
      unfold Dense.groupNamed at e2
      cases h : tr.agMap.get? n with
      | none => simp [h] at e2
      | some id => exact ⟨id, by simpa [h] using e2⟩
    have hall : ∀ a ∈ gp.attrs, a ∈ pr.allAttributes := by
      intro a ha
      unfold Dense.allAttributes
      exact List.mem_flatMap.2 ⟨gp, List.mem_of_getElem? i2, ha⟩
    have hopt : n ∈ optGroups tr names ↔ ∀ b ∈ gt.attrs, ct.equals b = false := by
      unfold optGroups
      rw [List.mem_filter, e2, ht]
      simp only [C27_intersect]
      simp [hm]
    refine ⟨gp, gt, e1, e2, ⟨id, i2⟩, hgt, e3, e4, ?_, ?_⟩
    · intro ho a ha
      rw [hopt] at ho
      refine hfl a ((hnorm a).2 ⟨hall a ha, ?_⟩)
      intro hac
      obtain ⟨j, hj⟩ := List.getElem?_of_mem ha
      obtain ⟨b, hb, hab⟩ := e4 j a hj
      have := ho b (List.mem_of_getElem? hb)
      rw [C28_equals_trans ct cls b he (hac ▸ hab)] at this
      cases this
    · intro ho a ha
      rw [hopt] at ho
      push Not at ho
      obtain ⟨b, hb, hbe⟩ := ho
      obtain ⟨j, hj⟩ := List.getElem?_of_mem hb
      have hj' : j < gp.attrs.length := by
        rw [e3]
        exact (List.getElem?_eq_some_iff.1 hj).1
      obtain ⟨b', hb', hab⟩ := e4 j _ (List.getElem?_eq_getElem hj')
      rw [hj, Option.some.injEq] at hb'
      subst hb'
      have hcl : gp.attrs[j].equals cls = true := by
        have h1 : ct.equals b = true := by simpa using hbe
        exact C28_equals_trans _ b cls hab (C28_equals_trans b ct cls (C28_equals_symm _ _ h1) he)
      have hany : gp.attrs.any (fun a => pr.allClassAttributes.any fun c => a.equals c) = true := by
        rw [List.any_eq_true]
        exact ⟨_, List.getElem_mem hj', by rw [hc]; simpa using hcl⟩
      have := hgr n hm
      rw [e1] at this
      simp only [hany, if_true, C27_intersect] at this
      by_contra hfa
      have hne : a ≠ cls := by
        rintro rfl
        exact hfa hcf
      have hmem : a ∈ pr.normalAttrs := (hnorm a).2 ⟨hall a ha, hne⟩
      have hx : a ∈ (pr.normalAttrs.filter fun a => gp.attrs.any fun b => a.equals b) := by
        rw [List.mem_filter, List.any_eq_true]
        exact ⟨hmem, a, ha, C28_equals_refl a⟩
      rw [List.isEmpty_iff.1 this] at hx
      cases hx
  constructor
  · intro n ho
    obtain ⟨gp, gt, m1, m2, m3, m4, m5, m6, m7, _⟩ := mk n (List.mem_filter.1 ho).1
    exact ⟨gp, gt, m1, m2, m3, m4, m5, m6, m7 ho⟩
  · have h1 : pr.allAttributes.Perm (attrsOf pr names) := by
      have : attrsOf pr names = (names.filterMap pr.groupNamed).flatMap (·.attrs) := by
        unfold attrsOf
        clear hn hgr lay inP permP mk hs
        induction names with
        | nil => rfl
        | cons n ns ih =>
          rw [List.flatMap_cons, List.filterMap_cons, ih]
          cases pr.groupNamed n <;> simp
      rw [this]
      exact (permP.flatMap_right _).symm
    refine List.Perm.trans (List.Perm.of_eq ?_) (h1.filter Attr.isFloat).symm
    unfold attrsOf
    rw [List.filter_flatMap]
    have key : ∀ ns : List String, (∀ n ∈ ns, n ∈ names) →
        (optGroups tr ns).flatMap (fun n => match pr.groupNamed n with
          | some g => g.attrs
          | none => []) =
        ns.flatMap fun n => (match pr.groupNamed n with
          | some g => g.attrs
          | none => []).filter Attr.isFloat := by
      intro ns
      induction ns with
      | nil => intro; rfl
      | cons n ns ih =>
        intro hsub
        obtain ⟨gp, gt, m1, m2, m3, m4, m5, m6, m7, m8⟩ := mk n (hsub n List.mem_cons_self)
        rw [List.flatMap_cons, ← ih fun m hm => hsub m (List.mem_cons_of_mem _ hm)]
        by_cases ho : n ∈ optGroups tr names
        · have e : optGroups tr (n :: ns) = n :: optGroups tr ns := by
            have hp := (List.mem_filter.1 ho).2
            unfold optGroups
            rw [List.filter_cons, if_pos hp]
          rw [e, List.flatMap_cons, m1]
          congr 1
          exact (List.filter_eq_self.2 (m7 ho)).symm
        · have e : optGroups tr (n :: ns) = optGroups tr ns := by
            unfold optGroups
            rw [List.filter_cons_of_neg]
            intro h
            exact ho (List.mem_filter.2 ⟨hsub n List.mem_cons_self, h⟩)
          have e2 : gp.attrs.filter Attr.isFloat = [] := by
            rw [List.filter_eq_nil_iff]
            intro a ha
            simp [m8 ho a ha]
          rw [e, m1]
          simp only [e2, List.nil_append]
    exact key names (fun _ h => h)

theorem optimisedPredict_spec {fo : FloatOps} (parse : String → Option U64) (pg : Nat) (val : U64 → R)
    {srtD : List (R × Nat) → List (R × Nat)} (hs : ∀ l, (srtD l).Perm l ∧ (srtD l).Pairwise fun p q => p.1 ≤ q.1)
    {ord : Nat → List String → List String} (hord : ∀ r l, (ord r l).Perm l) {k nT nW : Nat} (hk0 : 0 < k) (hk : k ≤ nT)
    (hW : 0 < nW) {pr tr : Dense} (Dp : DenseOK nW pr) (Dt : DenseOK nT tr) (Np : pr.GroupsNamed) (Nt : tr.GroupsNamed)
    {lab : Nat → String} {p : Nat} {nm : String} {vs : List String}
    (D : KnnData fo (.dense tr) (.dense pr) nT nW lab ⟨p, .cat nm vs⟩)
    (hcls : ∀ ct ∈ tr.allClassAttributes, ct.equals ⟨p, .cat nm vs⟩ = true)
    (hgrp : ∀ g ∈ pr.ags, g.attrs ≠ []) (hfeat : ∃ a ∈ pr.allAttributes, a.isFloat = true)
    {names : Nat → List String} (hn : ∀ r, (names r).Perm (pr.agMap.map Prod.fst)) {names0 : List String}
    (hn0 : names0.Perm (pr.agMap.map Prod.fst)) (hu : canUseOptimisations pr tr names0 = Res.ok true)
    (hb : vs.length + nW ≤ 2 ^ 64) :
    ∃ d, optimisedPredict fo parse pg val srtD ord k tr pr names = Res.ok d ∧ d.maxRow = nW ∧
      ∀ r, r < nW → ∃ out c,
        Nearest ((List.range nT).map ((Grid.dense tr).point val (pr.allAttributes.filter Attr.isFloat))) sqDist
          ((Grid.dense pr).point val (pr.allAttributes.filter Attr.isFloat) r) k out ∧
        Majority (out.map fun p => lab p.1) c ∧ getClass fo (.dense d) r = Res.ok c := by
  obtain ⟨ct, ht, htin, hread⟩ := D.label
  have hlen := ((C26_check_compatible _ _ _).1 D.same).2.1
  have he := hcls ct (by
    have : tr.allClassAttributes = [ct] := ht
    rw [this]; exact List.mem_singleton_self _)
  obtain ⟨f0, p0⟩ := optGroups_features Np Nt hn0 hu hlen D.whatClass rfl ht he
  have hfeats : ∀ r, (∀ n ∈ optGroups tr (names r), ∃ gp gt, OptGroup pr tr n gp gt) ∧
      (attrsOf pr (optGroups tr (names r))).Perm (pr.allAttributes.filter Attr.isFloat) := by
    intro r
    have hp : (optGroups tr (names r)).Perm (optGroups tr names0) := ((hn r).trans hn0.symm).filter _
    exact ⟨fun n hm => f0 n (hp.subset hm), (hp.flatMap_right _).trans p0⟩
  obtain ⟨ret, g1, g2, _⟩ := generate_spec pg D.whatRows.rows D.whatClass
  have hpr : pr.maxRow = nW := by obtain ⟨_, _, _, I, _⟩ := Dp; exact I.hrows
  have htr : tr.maxRow = nT := by obtain ⟨_, _, _, I, _⟩ := Dt; exact I.hrows
  have hstore : (optGroups tr (names 0)).any (optNoStorage tr pr) = false := by
    rw [List.any_eq_false]
    intro n hm
    obtain ⟨gp, gt, G⟩ := (hfeats 0).1 n hm
    obtain ⟨idp, hp⟩ := G.predIn
    obtain ⟨idt, ht⟩ := G.trainIn
    have hne := hgrp gp (List.mem_of_getElem? hp)
    obtain ⟨_, W1, hs1, I1, B1⟩ := Dp
    obtain ⟨_, W2, hs2, I2, B2⟩ := Dt
    have s1 := I1.sized idp gp hp
    have s2 := I2.sized idt gt ht
    have k1 := I1.kindpos idp gp hp
    have k2 := I2.kindpos idt gt ht
    unfold optNoStorage
    rw [G.train, G.pred]
    have hl : 0 < gp.attrs.length := List.length_pos_iff.2 hne
    have pos : ∀ (g : Group) (n : Nat), 0 < g.attrs.length → g.kind ≠ .fixed 0 → 0 < n → g.Sized n → g.alloc.isEmpty = false := by
      intro g n h1 h2 h3 h4
      unfold Group.Sized at h4
      rw [List.isEmpty_eq_false_iff, ← List.length_pos_iff]
      have : 0 < g.rowSize := by
        unfold Group.rowSize
        cases hk : g.kind with
        | fixed w =>
          have : w ≠ 0 := fun h => h2 (by rw [hk, h])
          exact Nat.mul_pos h1 (by omega)
        | binary => simp only; omega
      have := Nat.mul_pos h3 this
      omega
    simp only [pos gp nW hl k1 hW s1, pos gt nT (G.len ▸ hl) k2 (by omega) s2]
    decide
  obtain ⟨d, h1, h2, h3⟩ := optLoop_spec (fo := fo) (parse := parse) (val := val) hs hord hk hk0 Dp Dt (lab := lab)
    (fun q hq => by exact getClass_ok D.trainRows ht htin hread hq)
    (names := fun r => optGroups tr (names r)) (num := pr.allAttributes.filter Attr.isFloat)
    (fun r h => by
      obtain ⟨a, ha, hfa⟩ := hfeat
      have := (hfeats r).2.symm.subset (List.mem_filter.2 ⟨ha, hfa⟩)
      rw [h] at this
      cases this)
    (fun r => (hfeats r).1) (fun r => (hfeats r).2) (List.range nW) [] (fun r hr => List.mem_range.1 hr)
    List.nodup_range (by simp) (by simp) ret vs g2 (by simpa using hb) (List.replicate tr.maxRow (0, 0))
    (by simp [htr]) [] (by simp)
  refine ⟨d, ?_, h2, fun r hr => h3 r (Or.inr (List.mem_range.2 hr))⟩
  unfold optimisedPredict
  simp only [g1, Res.bind_ok, hstore, hpr, Bool.false_eq_true, if_false]
  exact h1

end

end Golearn
