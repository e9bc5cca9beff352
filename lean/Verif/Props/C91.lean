import Verif.Props.C67

/-! # C91: one-vs-all on data read separately from the training data -/

namespace Golearn

/-- The full property: on data whose class attribute has the name and the values of the one in training, every row gets
the name of a trained class of greatest output. -/
def NamesTrainedClasses : Prop :=
  ∀ (train : String → Option Grid → Res (Grid → Res Grid)) (fresh : Attr → Nat) (ord ord' : Nat → List FAttr → List FAttr)
    (g what : Grid) (n p p' : Nat) (nm : String) (vs vs' : List String) (m : OneVsAll) (num : U64 → Option Int)
    (y : Nat → Nat → Option Int) (srt : List Spec → List Spec) (pg : Nat) (fo : FloatOps),
    g.allClassAttributes = [⟨p, .cat nm vs⟩] → vs.Nodup → vs.length ≤ 2 ^ 64 →
    OneVsAll.fit train fresh ord g = Res.ok m → what.Presents n → what.distinct → what.allClassAttributes = [⟨p', .cat nm vs'⟩] →
    vs.Perm vs' → m.Outputs num ord' what n y → (∀ l, (srt l).Perm l) →
    ∃ d, m.predict num pg srt ord' what = Res.ok d ∧ ∀ r, r < n → ∃ j s, vs[j]? = some s ∧
      getClass fo (.dense d) r = Res.ok s ∧ MostConfident vs.length (fun i => y i r) j

section
variable {K : Type} [LinearOrder K] [Zero K] {num : U64 → Option K}

/-- What holds: the names are right if the class attribute of the data lists the values in the same order. Missing: data
whose values are listed in another order, as happens when they first occur in another order in the file. -/
theorem C91_same_order_partial {train : String → Option Grid → Res (Grid → Res Grid)} {fresh : Attr → Nat}
    {ord ord' : Nat → List FAttr → List FAttr} {g what : Grid} {n p p' : Nat} {nm nm' : String} {vs : List String}
    (hcl : g.allClassAttributes = [⟨p, .cat nm vs⟩]) (hnd : vs.Nodup) (hb : vs.length ≤ 2 ^ 64)
    {m : OneVsAll} (h : OneVsAll.fit train fresh ord g = Res.ok m)
    (hw : what.size.2 = n) (hc : what.allClassAttributes = [⟨p', .cat nm' vs⟩]) {y : Nat → Nat → Option K}
    (hO : m.Outputs num ord' what n y) {srt : List Spec → List Spec} (hsrt : ∀ l, (srt l).Perm l) (pg : Nat)
    (fo : FloatOps) :
    ∃ d, m.predict num pg srt ord' what = Res.ok d ∧ (Grid.dense d).size.2 = n ∧
      ∀ r, r < n → ∃ j s, vs[j]? = some s ∧ getClass fo (.dense d) r = Res.ok s ∧
        MostConfident vs.length (fun i => y i r) j := by
  obtain ⟨_, f1, f2, f3, _⟩ := ova_fit hcl rfl hnd hb h
  obtain ⟨d, d1, d2, d3⟩ := ova_predict m f1 f2 f3 hO hw hc hsrt pg
  refine ⟨d, d1, d2.rows, ?_⟩
  intro r hr
  obtain ⟨j, j1, j2⟩ := d3 r hr
  have hj := j1.known
  refine ⟨j, vs[j], List.getElem?_eq_getElem hj, ?_, j1⟩
  rw [d2.getClass, j2]
  simp only [Res.bind_ok, Attr.getString]
  exact catGetString_pack (by omega) (List.getElem?_eq_getElem hj)

/-- For any class attribute of the data, the row gets the value that has, in the data's own list, the number of the
class chosen. -/
theorem C91_label {train : String → Option Grid → Res (Grid → Res Grid)} {fresh : Attr → Nat}
    {ord ord' : Nat → List FAttr → List FAttr} {g what : Grid} {n p p' : Nat} {nm nm' : String} {vs vs' : List String}
    (hcl : g.allClassAttributes = [⟨p, .cat nm vs⟩]) (hnd : vs.Nodup) (hb : vs.length ≤ 2 ^ 64)
    {m : OneVsAll} (h : OneVsAll.fit train fresh ord g = Res.ok m)
    (hw : what.size.2 = n) (hc : what.allClassAttributes = [⟨p', .cat nm' vs'⟩]) {y : Nat → Nat → Option K}
    (hO : m.Outputs num ord' what n y) {srt : List Spec → List Spec} (hsrt : ∀ l, (srt l).Perm l) (pg : Nat)
    (fo : FloatOps) :
    ∃ d, m.predict num pg srt ord' what = Res.ok d ∧
      ∀ r, r < n → ∃ j, MostConfident vs.length (fun i => y i r) j ∧
        getClass fo (.dense d) r = (match vs'[j]? with | some s => Res.ok s | none => Res.panic) := by
  obtain ⟨_, f1, f2, f3, _⟩ := ova_fit hcl rfl hnd hb h
  obtain ⟨d, d1, d2, d3⟩ := ova_predict m f1 f2 f3 hO hw hc hsrt pg
  refine ⟨d, d1, ?_⟩
  intro r hr
  obtain ⟨j, j1, j2⟩ := d3 r hr
  have hj := j1.known
  refine ⟨j, j1, ?_⟩
  rw [d2.getClass, j2]
  have hm : j % 2 ^ 64 = j := Nat.mod_eq_of_lt (by omega)
  simp only [Res.bind_ok, Attr.getString, catGetString, C01_unpack_pack, BitVec.toNat_ofNat, hm]
  cases vs'[j]? <;> rfl

/-- The filters of the model leave data with other attribute objects alone: the classifiers are given the class column
as it is, not as a number. -/
theorem C91_unfiltered {what : Grid} (f : OvaFilter) (ord : List FAttr → List FAttr) (hord : ∀ l, (ord l).Perm l)
    (hother : ∀ a ∈ what.allAttributes, a ∉ f.attrs.map Prod.fst) :
    (Grid.newFiltered what (f.filter ord)).allAttributes = what.allAttributes := by
  obtain ⟨cls, e⟩ := newFiltered_shape what (f.filter ord)
  rw [e]
  simp only [Grid.allAttributes]
  have hflag : ∀ a ∈ what.allAttributes, Grid.flag (Grid.unfilteredMap what (f.filter ord)) a = true := by
    intro a ha
    rw [flag_unfiltered]
    refine ⟨ha, ?_⟩
    intro p hp hpa
    simp only [OvaFilter.filter, (hord _).mem_iff, List.mem_map] at hp
    obtain ⟨q, hq, rfl⟩ := hp
    exact hother a ha (hpa ▸ List.mem_map.2 ⟨q, hq, rfl⟩)
  clear hother e
  generalize what.allAttributes = l at hflag ⊢
  induction l with
  | nil => rfl
  | cons a as ih =>
    rw [List.flatMap_cons, if_pos (hflag a List.mem_cons_self), ih fun b hb => hflag b (List.mem_cons_of_mem _ hb)]
    rfl
end

section Witness
private def fd : Attr := ⟨7, .cat "c" ["y", "x"]⟩
private def ops2 : List Op := [.add fd, .extend 2, .addClass fd]

/-- It is false of the code: data that lists the two classes the other way round gets the wrong names. -/
theorem C91_refuted : ¬ NamesTrainedClasses := by
  intro H
  obtain ⟨train, g, m, -, -, hcl, -, -, -, hm, -, hO⟩ := ova_example
  have hw : ∃ st, run 4096 ops2 = Res.ok st ∧ (∀ op ∈ ops2, basicOp op = true) ∧
      (addedAttrs ops2).Pairwise (fun a b => a.equals b = false) ∧ totalRows ops2 = 2 ∧
      st.d.allClassAttributes = [fd] := by
    refine ⟨_, rfl, ?_, ?_, ?_, ?_⟩
    all_goals decide +kernel
  obtain ⟨st, hrun, hb, hd, h2, hc⟩ := hw
  have D := denseOK_run hb hrun hd
  rw [h2] at D
  obtain ⟨d, d1, d2⟩ := H train (fun _ => 5) (fun _ l => l) (fun _ l => l) g (.dense st.d) 2 1 7 "c" ["x", "y"] ["y", "x"] m exampleNum _ id 4096
    ⟨fun _ _ => "", fun _ _ => false⟩ hcl (by decide) (by decide) hm D.presents D.1 hc (by decide)
    (hO (.dense st.d) (fun _ l => l)) (fun l => List.Perm.refl l)
  obtain ⟨d', e1, e2⟩ := C91_label (g := g) (vs' := ["y", "x"]) hcl (by decide) (by decide) hm D.presents.rows hc
    (hO (.dense st.d) (fun _ l => l)) (srt := id) (fun l => List.Perm.refl l) 4096 ⟨fun _ _ => "", fun _ _ => false⟩
  rw [d1, Res.ok.injEq] at e1
  subst e1
  obtain ⟨j, s, j1, j2, j3⟩ := d2 1 (by decide)
  obtain ⟨j', k1, k2⟩ := e2 1 (by decide)
  have uniq : ∀ i, MostConfident 2 (fun i => some (if i = 1 ∧ 1 = 1 then (1 : Int) else 0)) i → i = 1 := by
    intro i hi
    obtain ⟨b, b1, b2⟩ := hi.greatest 1 1 (by decide) rfl (by decide)
    by_contra hne
    simp only [hne, false_and, if_false, Option.some.injEq] at b1
    rw [← b1] at b2
    revert b2; decide
  rw [uniq j j3] at j1
  rw [uniq j' k1] at k2
  simp at j1 k2
  rw [k2, Res.ok.injEq, ← j1] at j2
  revert j2; decide
end Witness

end Golearn
