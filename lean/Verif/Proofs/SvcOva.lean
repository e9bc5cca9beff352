import Verif.Proofs.LibGrid
import Verif.Proofs.OneVsAll
import Verif.Proofs.ClassAttrs
import Verif.Props.C91
import Verif.Props.C78

/-! # Linear support vector machines inside one-vs-all models -/

namespace Golearn

section
variable {K : Type} [Field K] [LinearOrder K]

/-- liblinear always has an answer if there is a label for each class. -/
theorem libPredict_total (m : LModel K) (x : List K) (hl : m.label.length = m.nrClass) (h0 : m.label ≠ []) : ∃ l, libPredict m x = Res.ok l := by
  obtain ⟨space, h1, h2⟩ := convertVector_spec x
  have hpos : 0 < m.nrClass := by rw [← hl]; exact List.length_pos_of_ne_nil h0
  unfold libPredict
  rw [h1, Res.bind_ok, h2]
  simp only [Option.elim_some]
  unfold predictValues
  by_cases h : m.nrClass = 2
  · rw [if_pos h]
    split
    · rw [List.getElem?_eq_getElem (by omega)]
      exact ⟨_, rfl⟩
    · rw [List.getElem?_eq_getElem (by omega)]
      exact ⟨_, rfl⟩
  · rw [if_neg h]
    obtain ⟨g1, _⟩ := decMax_spec (decValue m (sparse (fun v => 0 < v) x 0)) (m.nrClass - 1) 1 0 (by omega) (by
      intro j hj
      have : j = 0 := by omega
      subst this
      exact ⟨le_refl _, fun h => absurd h (lt_irrefl _)⟩)
    rw [List.getElem?_eq_getElem (by omega)]
    exact ⟨_, rfl⟩

/-! ## Data whose attributes a filter does not know -/

theorem passed_flag {what : Grid} {f : OvaFilter} {ord : List FAttr → List FAttr} (hord : ∀ l, (ord l).Perm l)
    (hother : ∀ a ∈ what.allAttributes, a ∉ f.attrs.map Prod.fst) {a : Attr} (ha : a ∈ what.allAttributes) :
    Grid.flag (Grid.unfilteredMap what (f.filter ord)) a = true := by
  rw [flag_unfiltered]
  refine ⟨ha, ?_⟩
  intro p hp hpa
  simp only [OvaFilter.filter, (hord _).mem_iff, List.mem_map] at hp
  obtain ⟨q, hq, rfl⟩ := hp
  exact hother a ha (hpa ▸ List.mem_map.2 ⟨q, hq, rfl⟩)

theorem passed_class {what : Grid} {f : OvaFilter} {ord : List FAttr → List FAttr} (hord : ∀ l, (ord l).Perm l)
    (hother : ∀ a ∈ what.allAttributes, a ∉ f.attrs.map Prod.fst) {c : Attr} (hc : what.allClassAttributes = [c]) (hcin : c ∈ what.allAttributes) :
    (Grid.newFiltered what (f.filter ord)).allClassAttributes = [c] := by
  unfold Grid.newFiltered
  rw [hc]
  simp only [List.foldl_cons, List.foldl_nil, Grid.addClassAttribute, passed_flag hord hother hcin, if_true]
  rfl

theorem mapRes_id_of {α : Type} {f : α → Res α} {l : List α} (h : ∀ x ∈ l, f x = Res.ok x) : mapRes f l = Res.ok l := by
  induction l with
  | nil => rfl
  | cons x l ih =>
    rw [mapRes, h x (by simp), Res.bind_ok, ih fun y hy => h y (by simp [hy]), Res.bind_ok]

/-- A filter for other attributes hands the rows on as they are. -/
theorem passed_rows {what : Grid} {n : Nat} (P : what.Presents n) {f : OvaFilter} {ord : List FAttr → List FAttr} (hord : ∀ l, (ord l).Perm l)
    (hother : ∀ a ∈ what.allAttributes, a ∉ f.attrs.map Prod.fst) (hcls : f.cls.isFloat = false) {specs : List Spec}
    (hs : ∀ s ∈ specs, ∃ a ∈ what.allAttributes, what.getAttribute a = Res.ok s ∧ s.attr = a ∧ a.isFloat = true) :
    (Grid.newFiltered what (f.filter ord)).mapPrep specs = Res.ok () ∧
    ∀ r, r < n → (Grid.newFiltered what (f.filter ord)).rowVals specs r = what.rowVals specs r := by
  obtain ⟨cls, e⟩ := newFiltered_shape what (f.filter ord)
  rw [e]
  obtain ⟨q1, q2⟩ := P.iter specs fun s h => let ⟨a, h1, h2, _⟩ := hs s h; ⟨a, h1, h2⟩
  have hold : mapRes (Grid.newToOld (f.filter ord) what (Grid.unfilteredMap what (f.filter ord))) specs = Res.ok specs := by
    refine mapRes_id_of fun s h => ?_
    obtain ⟨a, h1, _, h3, _⟩ := hs s h
    rw [Grid.newToOld, if_pos (by rw [h3]; exact passed_flag hord hother h1)]
  refine ⟨?_, ?_⟩
  · rw [Grid.mapPrep, hold]
    exact q1
  · intro r hr
    rw [Grid.rowVals, hold]
    simp only
    rw [q2 r hr, Res.bind_ok]
    have hno : ∀ s ∈ specs, s.attr.equals f.cls = false := by
      intro s h
      obtain ⟨a, _, _, h3, h4⟩ := hs s h
      cases he : s.attr.equals f.cls with
      | false => rfl
      | true =>
        have := equals_isFloat he
        rw [h3, h4, hcls] at this
        cases this
    clear hold q1 q2 hs
    induction specs with
    | nil => rfl
    | cons s specs ih =>
      simp only [List.map_cons, List.zip_cons_cons, mapRes]
      rw [ih fun t ht => hno t (by simp [ht])]
      simp only [OvaFilter.filter, hno s (by simp), Bool.not_false, if_true, Res.bind_ok]

theorem passed_lookup {what : Grid} {f : OvaFilter} {ord : List FAttr → List FAttr} (hord : ∀ l, (ord l).Perm l)
    (hother : ∀ a ∈ what.allAttributes, a ∉ f.attrs.map Prod.fst) {l : List Attr} (hl : ∀ a ∈ l, a ∈ what.allAttributes) :
    (Grid.newFiltered what (f.filter ord)).resolveUnsorted l = what.resolveUnsorted l := by
  obtain ⟨cls, e⟩ := newFiltered_shape what (f.filter ord)
  rw [e]
  unfold Grid.resolveUnsorted
  induction l with
  | nil => rfl
  | cons a l ih =>
    rw [mapRes, mapRes, ih fun b hb => hl b (by simp [hb])]
    congr 1
    rw [Grid.getAttribute, if_pos (passed_flag hord hother (hl a (by simp)))]

/-- Predicting through such a filter. -/
theorem passed_predict {val : U64 → K} {enc : Int → U64} {srt : List Spec → List Spec} (hsrt : PositionSort srt) {pg : Nat}
    {order : List Nat} {m : LModel K} {what : Grid} {n : Nat} (P : what.Presents n) (T : what.typed n)
    {f : OvaFilter} {ord : List FAttr → List FAttr} (hord : ∀ l, (ord l).Perm l)
    (hother : ∀ a ∈ what.allAttributes, a ∉ f.attrs.map Prod.fst) (hcls : f.cls.isFloat = false)
    (ho : (Grid.newFiltered what (f.filter ord)).RowOrder order) {c : Attr}
    (hc : what.allClassAttributes = [c]) (hcin : c ∈ what.allAttributes) (hbin : c.isBin = false) {fs : List Attr} (hfs : fs.Perm what.nonClassFloats)
    (hsp : ∀ sp : Attr → Spec, srt (what.nonClassFloats.map sp) = fs.map sp) {lab : Nat → Int}
    (hlab : ∀ r, r < n → libPredict m (what.point val fs r) = Res.ok (lab r)) :
    ∃ d, svcPredict val enc srt pg order m (Grid.newFiltered what (f.filter ord)) = Res.ok d ∧ PredVec d n c ∧
      ∀ r, r < n → d.get ⟨some 0, 0, c⟩ r = Res.ok (packU64 (enc (lab r))) := by
  have hcl := passed_class hord hother hc hcin
  have hnf : (Grid.newFiltered what (f.filter ord)).nonClassFloats = what.nonClassFloats := by
    unfold Grid.nonClassFloats
    rw [hcl, hc, C91_unfiltered f ord hord hother]
  have hmem : ∀ a ∈ what.nonClassFloats, a ∈ what.allAttributes := fun a ha => (nonClassFloats_mem ha).1
  obtain ⟨sp, x1, x2⟩ := features_spec P T (num := what.nonClassFloats)
    (fun a ha => ⟨a, (nonClassFloats_mem ha).1, C28_equals_refl a, rfl⟩) (fun a ha => (nonClassFloats_mem ha).2)
  obtain ⟨x3, x4⟩ := x2 fs (fun a ha => hfs.subset ha)
  have hspec : ∀ s ∈ fs.map sp, ∃ a ∈ what.allAttributes, what.getAttribute a = Res.ok s ∧ s.attr = a ∧ a.isFloat = true := by
    intro s hs
    obtain ⟨a, ha, rfl⟩ := List.mem_map.1 hs
    have ha := hfs.subset ha
    obtain ⟨s, s1, s2, _⟩ := P.read a (hmem a ha)
    have : what.getAttribute a = Res.ok (sp a) := by
      have h := (mapRes_eq_ok _ _ _).1 x1
      obtain ⟨i, hi, rfl⟩ := List.getElem_of_mem ha
      have := (List.forall₂_iff_get.1 h).2 i hi (by simpa using hi)
      simp only [List.get_eq_getElem, List.getElem_map, s1] at this ⊢
      exact this
    rw [s1, Res.ok.injEq] at this
    exact ⟨a, hmem a ha, by rw [s1, this], by rw [← this, s2], (nonClassFloats_mem ha).2⟩
  obtain ⟨p1, p2⟩ := passed_rows P hord hother hcls hspec
  have hsize : (Grid.newFiltered what (f.filter ord)).size.2 = n := by
    obtain ⟨cls, e⟩ := newFiltered_shape what (f.filter ord)
    rw [e, Grid.size]
    exact P.rows
  have hord' : order.Perm (List.range n) := by
    obtain ⟨cls, e⟩ := newFiltered_shape what (f.filter ord)
    rw [e] at ho
    exact P.order _ ho
  refine svcPredict_core hsrt hsize hord' hcl hbin (sp := sp) (fs := fs) ?_ ?_ p1 (row := fun r => fs.map fun a => what.cell a r)
    (fun r hr => ⟨by rw [p2 r hr]; exact (x4 r hr).1, (x4 r hr).2 val⟩) hlab
  · rw [hnf, passed_lookup hord hother hmem, x1]
  · rw [hnf]
    exact hsp sp

/-! ## Data whose attributes are those in training -/

theorem marked_attrs {g : Grid} {n : Nat} (hd : g.distinct) {c : Attr} (hc : c ∈ g.allAttributes)
    {fresh : Attr → Nat} {ord : List FAttr → List FAttr} (hord : ∀ l, (ord l).Perm l) (val : U64) :
    (Grid.newFiltered g ((⟨ovaAttrs fresh g.allAttributes c, c, val⟩ : OvaFilter).filter ord)).allAttributes =
      g.allAttributes.map (ovaNew fresh c) := by
  obtain ⟨cls, e⟩ := newFiltered_shape g ((⟨ovaAttrs fresh g.allAttributes c, c, val⟩ : OvaFilter).filter ord)
  rw [e]
  simp only [Grid.allAttributes]
  have key : ∀ a ∈ g.allAttributes, (if Grid.flag (Grid.unfilteredMap g ((⟨ovaAttrs fresh g.allAttributes c, c, val⟩ : OvaFilter).filter ord)) a then [a]
      else (((⟨ovaAttrs fresh g.allAttributes c, c, val⟩ : OvaFilter).filter ord).attrs.filter fun b => a.equals b.old).map FAttr.new) = [ovaNew fresh c a] := by
    intro a ha
    have hnf : ¬ Grid.flag (Grid.unfilteredMap g ((⟨ovaAttrs fresh g.allAttributes c, c, val⟩ : OvaFilter).filter ord)) a = true := by
      rw [flag_unfiltered]
      intro h
      exact absurd rfl (h.2 ⟨a, ovaNew fresh c a⟩ ((mem_ovaFilter hd hc hord _ _).2 ⟨a, ha, rfl⟩))
    rw [if_neg hnf]
    refine List.perm_singleton.1 ?_
    have hp : (((⟨ovaAttrs fresh g.allAttributes c, c, val⟩ : OvaFilter).filter ord).attrs).Perm
        (g.allAttributes.map fun a => (⟨a, ovaNew fresh c a⟩ : FAttr)) := by
      refine (hord _).trans ?_
      simp only [ovaAttrs_eq fresh hd hc, List.map_map]
      exact List.Perm.refl _
    refine ((hp.filter _).map _).trans ?_
    rw [List.filter_map, List.map_map]
    have : (g.allAttributes.filter ((fun b : FAttr => a.equals b.old) ∘ fun a => (⟨a, ovaNew fresh c a⟩ : FAttr))) = [a] := by
      have hnd := nodup_of_distinct hd
      refine List.perm_singleton.1 ((List.perm_ext_iff_of_nodup (hnd.filter _) (by simp)).2 ?_)
      intro x
      simp only [List.mem_filter, Function.comp, List.mem_singleton]
      constructor
      · rintro ⟨h1, h2⟩
        exact (distinct_eq hd ha h1 h2).symm
      · rintro rfl
        exact ⟨ha, C28_equals_refl _⟩
    rw [this]
    rfl
  have : ∀ l : List Attr, (∀ a ∈ l, a ∈ g.allAttributes) → (l.flatMap fun a =>
      if Grid.flag (Grid.unfilteredMap g ((⟨ovaAttrs fresh g.allAttributes c, c, val⟩ : OvaFilter).filter ord)) a then [a]
      else (((⟨ovaAttrs fresh g.allAttributes c, c, val⟩ : OvaFilter).filter ord).attrs.filter fun b => a.equals b.old).map FAttr.new) =
      l.map (ovaNew fresh c) := by
    intro l
    induction l with
    | nil => intro _; rfl
    | cons a l ih =>
      intro h
      rw [List.flatMap_cons, key a (h a (by simp)), ih fun b hb => h b (by simp [hb])]
      rfl
  exact this _ fun a ha => ha

theorem newFiltered_class_nodup {src : Grid} {f : Filter} {c : Attr} (hc : src.allClassAttributes = [c]) :
    (Grid.newFiltered src f).allClassAttributes.Nodup := by
  have key : ∀ (l : List FAttr) (m : GoMap Attr Bool), (m.map Prod.fst).Nodup →
      ((l.foldl (fun m b => m.set b.new true) m).map Prod.fst).Nodup := by
    intro l
    induction l with
    | nil => intro m h; exact h
    | cons b l ih => intro m h; exact ih _ (GoMap.nodup_set m b.new true h)
  have sub : ∀ m : GoMap Attr Bool, (m.map Prod.fst).Nodup → ((m.filter fun p => p.2).map Prod.fst).Nodup := by
    intro m h
    exact h.sublist (List.filter_sublist.map _)
  unfold Grid.newFiltered
  rw [hc]
  simp only [List.foldl_cons, List.foldl_nil, Grid.addClassAttribute]
  by_cases h1 : Grid.flag (Grid.unfilteredMap src f) c = true
  · rw [if_pos h1]
    simp only [Grid.allClassAttributes]
    exact sub _ (by simp [GoMap.set])
  · rw [if_neg h1]
    by_cases h2 : (f.attrs.filter fun b => b.old.equals c || b.new.equals c).isEmpty = true
    · rw [if_pos h2]
      simp [Grid.allClassAttributes]
    · rw [if_neg h2]
      simp only [Grid.allClassAttributes]
      exact sub _ (key _ _ (by simp))

/-- What a filter of the training data shows of it. -/
theorem marked_view (val : U64 → K) {what : Grid} {n : Nat} (P : what.Presents n) (T : what.typed n) (hd : what.distinct)
    {c : Attr} {nm : String} {vs : List String} (hc : what.allClassAttributes = [c]) (hcin : c ∈ what.allAttributes) (hcb : c.body = .cat nm vs)
    (hno : NoNameClash what c) {fresh : Attr → Nat} {ord : List FAttr → List FAttr} (hord : ∀ l, (ord l).Perm l) (i : Nat) :
    ∃ v a, Grid.newFiltered what ((⟨ovaAttrs fresh what.allAttributes c, c, BitVec.ofNat 64 i⟩ : OvaFilter).filter ord) = v ∧
      v.Presents n ∧ v.typed n ∧ v.allClassAttributes = [a] ∧ a.body = .float c.name 2 ∧ a ∈ v.allAttributes ∧
      v.nonClassFloats = what.nonClassFloats ∧
      (∀ fs : List Attr, (∀ x ∈ fs, x ∈ what.nonClassFloats) → ∀ r, r < n → v.point val fs r = what.point val fs r) ∧
      ∀ r, r < n → v.cell a r = packU64 (if what.cell c r = packU64 (BitVec.ofNat 64 i) then f64One else 0#64) := by
  have hcv : ∀ r, r < n → ∃ u, what.cell c r = packU64 u := by
    intro r hr
    have := T c hcin r hr
    have hb : c.isBin = false := by rw [Attr.isBin, hcb]
    rw [wellFormed, hb] at this
    obtain ⟨v, _, hv⟩ := C01_pack_unpack (what.cell c r) (by simpa using this)
    exact ⟨v, hv.symm⟩
  have M := ova_marks (fresh := fresh) P hd hc hcin hcb hcv hno hord i
  obtain ⟨v, hv⟩ : ∃ v, v = Grid.newFiltered what ((⟨ovaAttrs fresh what.allAttributes c, c, BitVec.ofNat 64 i⟩ : OvaFilter).filter ord) := ⟨_, rfl⟩
  have hattrs := marked_attrs (n := n) hd hcin (fresh := fresh) hord (BitVec.ofNat 64 i)
  have hnd := newFiltered_class_nodup (f := ((⟨ovaAttrs fresh what.allAttributes c, c, BitVec.ofNat 64 i⟩ : OvaFilter).filter ord)) hc
  rw [← hv] at M hattrs hnd
  obtain ⟨a, m1, m2, m3, m4, m5⟩ := M.marks
  have hcl : v.allClassAttributes = [a] := by
    refine List.perm_singleton.1 ((List.perm_ext_iff_of_nodup hnd (by simp)).2 ?_)
    intro x
    rw [m1, List.mem_singleton]
  have hbin : a.isBin = false := by rw [Attr.isBin, m2]
  have hain : a ∈ v.allAttributes := (m3 a).2 (Or.inl rfl)
  have hanew : a = ovaNew fresh c c := by
    have h1 : ovaNew fresh c c ∈ v.allAttributes := by rw [hattrs]; exact List.mem_map_of_mem hcin
    have hb : (ovaNew fresh c c).body = .float c.name 2 := by simp [ovaNew]
    refine distinct_eq M.told hain h1 ?_
    unfold Attr.equals
    rw [m2, hb]
    simp
  have hTv : v.typed n := by
    intro x hx r hr
    rcases (m3 x).1 hx with rfl | ⟨h1, h2⟩
    · rw [m4 r hr, wellFormed, hbin]
      simp [packU64_length]
    · rw [m5 x h1 h2 r hr]
      exact T x h1 r hr
  have hnf : v.nonClassFloats = what.nonClassFloats := by
    unfold Grid.nonClassFloats
    rw [hcl, hc, hattrs]
    have : ∀ l : List Attr, (∀ x ∈ l, x ∈ what.allAttributes) →
        ((l.map (ovaNew fresh c)).filter fun x => x.isFloat && !([a].any fun b => x.equals b)) =
        l.filter fun x => x.isFloat && !([c].any fun b => x.equals b) := by
      intro l
      induction l with
      | nil => intro _; rfl
      | cons x l ih =>
        intro h
        have hx := h x (by simp)
        rw [List.map_cons, List.filter_cons, List.filter_cons, ih fun y hy => h y (by simp [hy])]
        by_cases hxc : x = c
        · subst hxc
          rw [← hanew]
          simp [C28_equals_refl]
        · have hn : ovaNew fresh c x = x := by rw [ovaNew, if_neg hxc]
          have h1 : x.equals c = false := by
            cases he : x.equals c with
            | false => rfl
            | true => exact absurd (distinct_eq hd hx hcin he) hxc
          have h2 : x.equals a = false := by
            cases he : x.equals a with
            | false => rfl
            | true =>
              have hxa := distinct_eq M.told ((m3 x).2 (Or.inr ⟨hx, hxc⟩)) hain he
              rw [hxa] at hx
              exact absurd m2 (hno a hx 2)
          rw [hn]
          simp [h1, h2]
    exact this _ fun x hx => hx
  have hpt : ∀ fs : List Attr, (∀ x ∈ fs, x ∈ what.nonClassFloats) → ∀ r, r < n → v.point val fs r = what.point val fs r := by
    intro fs hfs r hr
    unfold Grid.point
    refine List.map_congr_left fun x hx => ?_
    have hx := hfs x hx
    have hxin := (nonClassFloats_mem hx).1
    have hxc : x ≠ c := by
      rintro rfl
      have := (nonClassFloats_mem hx).2
      rw [Attr.isFloat, hcb] at this
      cases this
    unfold Grid.number
    rw [m5 x hxin hxc r hr]
  exact ⟨v, a, hv.symm, M.table, hTv, hcl, m2, hain, hnf, hpt, m4⟩

/-- Predicting through the filter of the training data. -/
theorem marked_predict {val : U64 → K} {enc : Int → U64} {srt : List Spec → List Spec} (hsrt : PositionSort srt) {pg : Nat}
    {order : List Nat} {m : LModel K} {what : Grid} {n : Nat} (P : what.Presents n) (T : what.typed n) (hd : what.distinct)
    {c : Attr} {nm : String} {vs : List String} (hc : what.allClassAttributes = [c]) (hcin : c ∈ what.allAttributes) (hcb : c.body = .cat nm vs)
    (hno : NoNameClash what c) {fresh : Attr → Nat} {ord : List FAttr → List FAttr} (hord : ∀ l, (ord l).Perm l) (i : Nat)
    (ho : (Grid.newFiltered what ((⟨ovaAttrs fresh what.allAttributes c, c, BitVec.ofNat 64 i⟩ : OvaFilter).filter ord)).RowOrder order)
    {fs : List Attr} (hfs : fs.Perm what.nonClassFloats)
    (hsp : ∀ sp : Attr → Spec, srt (what.nonClassFloats.map sp) = fs.map sp) {lab : Nat → Int}
    (hlab : ∀ r, r < n → libPredict m (what.point val fs r) = Res.ok (lab r)) :
    ∃ d a, svcPredict val enc srt pg order m
        (Grid.newFiltered what ((⟨ovaAttrs fresh what.allAttributes c, c, BitVec.ofNat 64 i⟩ : OvaFilter).filter ord)) = Res.ok d ∧ PredVec d n a ∧
      ∀ r, r < n → d.get ⟨some 0, 0, a⟩ r = Res.ok (packU64 (enc (lab r))) := by
  obtain ⟨v, a, hv, Pv, Tv, hcl, ha, _, hnf, hpt, _⟩ := marked_view val P T hd hc hcin hcb hno (fresh := fresh) hord i
  rw [hv] at ho ⊢
  have hbin : a.isBin = false := by rw [Attr.isBin, ha]
  obtain ⟨d, d1, d2, d3⟩ := svcPredict_table (enc := enc) (pg := pg) (m := m) (val := val) (lab := lab) hsrt Pv Tv ho hcl hbin (fs := fs)
    (by rw [hnf]; exact hfs) (by rw [hnf]; exact hsp) (fun r hr => by rw [hpt fs (fun x hx => hfs.subset hx) r hr]; exact hlab r hr)
  exact ⟨d, a, d1, d2, d3⟩
end

/-! ## Models that are told the same predict the same -/

section
variable {K : Type} [LinearOrder K] [Zero K] {num : U64 → Option K}

theorem ovaChoose_congr {n : Nat} {y : Nat → Nat → Option K} {r : Nat} (hr : r < n) (l l' : List (Grid × Spec)) (j : Nat)
    (h : List.Forall₂ (fun i q => ∀ r, r < n → ∃ u, q.1.get q.2 r = Res.ok (packU64 u) ∧ num u = y i r) (List.range' j l.length) l)
    (h' : List.Forall₂ (fun i q => ∀ r, r < n → ∃ u, q.1.get q.2 r = Res.ok (packU64 u) ∧ num u = y i r) (List.range' j l.length) l')
    (best : Nat × K) : ovaChoose num r l' j best = ovaChoose num r l j best := by
  induction l generalizing j l' best with
  | nil =>
    simp only [List.length_nil, List.range'_zero, List.forall₂_nil_left_iff] at h'
    rw [h']
  | cons q l ih =>
    rw [List.length_cons, List.range'_succ] at h h'
    obtain ⟨p, s⟩ := q
    rw [List.forall₂_cons] at h
    rw [List.forall₂_cons_left_iff] at h'
    obtain ⟨⟨p', s'⟩, l'', h1, h2, rfl⟩ := h'
    obtain ⟨u, u1, u2⟩ := h.1 r hr
    obtain ⟨u', u1', u2'⟩ := h1 r hr
    simp only at u1 u1'
    simp only [ovaChoose, u1, u1', Res.bind_ok, C01_unpack_pack, u2, u2']
    exact ih l'' (j + 1) h.2 h2 _

theorem ovaRows_congr {outs outs' : List (Grid × Spec)} {spec : Spec} (rows : List Nat)
    (h : ∀ r ∈ rows, ovaChoose num r outs' 0 (0, 0) = ovaChoose num r outs 0 (0, 0)) (d : Dense) :
    ovaRows num outs' spec rows d = ovaRows num outs spec rows d := by
  induction rows generalizing d with
  | nil => rfl
  | cons r rows ih =>
    simp only [ovaRows, h r (by simp)]
    congr 1
    funext best
    congr 1
    funext d'
    exact ih (fun x hx => h x (by simp [hx])) d'

/-- The classifiers of the model succeed, and what they say about row `r` is `y i r`. -/
def OneVsAll.Says (m : OneVsAll) (num : U64 → Option K) (srt : List Spec → List Spec) (ord : Nat → List FAttr → List FAttr) (what : Grid)
    (n : Nat) (y : Nat → Nat → Option K) : Prop :=
  ∀ i, i < m.maxVal.toNat + 1 → ∃ q, m.ask srt ord what i = Res.ok q ∧
    ∀ r, r < n → ∃ u, q.1.get q.2 r = Res.ok (packU64 u) ∧ num u = y i r

theorem ova_predict_same {m m' : OneVsAll} {srt : List Spec → List Spec} {ord ord' : Nat → List FAttr → List FAttr} {what : Grid} {n : Nat}
    {y : Nat → Nat → Option K} (hmax : m'.maxVal = m.maxVal) (hf : m'.filters.length = m.filters.length) (pg : Nat)
    (hrows : ∀ ret, generatePredictionVector pg what = Res.ok ret → ret.size.2 = n)
    (h : m.Says num srt ord what n y) (h' : m'.Says num srt ord' what n y) :
    m'.predict num pg srt ord' what = m.predict num pg srt ord what := by
  obtain ⟨o, o1, o2⟩ := mapRes_forall₂ (f := m.ask srt ord what) (List.range (m.maxVal.toNat + 1)) fun i hi => h i (List.mem_range.1 hi)
  obtain ⟨o', o1', o2'⟩ := mapRes_forall₂ (f := m'.ask srt ord' what) (List.range (m.maxVal.toNat + 1))
    fun i hi => h' i (by rw [hmax]; exact List.mem_range.1 hi)
  have hnil : m'.filters = [] ↔ m.filters = [] := by
    rw [← List.length_eq_zero_iff, ← List.length_eq_zero_iff, hf]
  unfold OneVsAll.predict
  rw [hmax, hf, o1, o1']
  simp only [hnil, Res.bind_ok]
  cases hg : generatePredictionVector pg what with
  | err => rfl
  | panic => rfl
  | ok ret =>
    simp only [Res.bind_ok]
    congr 1
    congr 1
    funext sp
    cases sp with
    | nil => rfl
    | cons spec _ =>
      refine ovaRows_congr (num := num) _ (fun r hr => ?_) _
      have hr : r < n := by rw [← hrows ret hg]; exact List.mem_range.1 hr
      have e : List.range (m.maxVal.toNat + 1) = List.range' 0 o.length := by
        rw [← o2.length_eq, List.length_range, List.range_eq_range']
      rw [e] at o2 o2'
      exact ovaChoose_congr hr o o' 0 o2 o2' _

/-- A classifier that gives a prediction vector. -/
theorem ask_predVec {m : OneVsAll} {srt : List Spec → List Spec} (hsrt : PositionSort srt) {ord : Nat → List FAttr → List FAttr} {what : Grid}
    {i n : Nat} {f : OvaFilter} {c : Grid → Res Grid} (hf : m.filters[i]? = some f) (hc : m.classifiers[i]? = some c) {d : Dense} {a : Attr}
    (hd : c (Grid.newFiltered what (f.filter (ord i))) = Res.ok (.dense d)) (hp : PredVec d n a) :
    m.ask srt ord what i = Res.ok (.dense d, ⟨some 0, 0, a⟩) := by
  obtain ⟨ss, hss, hp'⟩ := positionSort_attrs hsrt [a]
  have : ss = [a] := List.perm_singleton.1 hss
  subst this
  have hl : (Grid.dense d).getAttribute a = Res.ok ⟨some 0, 0, a⟩ := hp.lookup
  have hcl : (Grid.dense d).allClassAttributes = [a] := hp.classes
  have := hp' (fun _ => ⟨some 0, 0, a⟩)
  simp only [List.map_cons, List.map_nil] at this
  simp only [OneVsAll.ask, hf, hc, hd, Res.bind_ok, hcl, Grid.resolve, Grid.resolveUnsorted, mapRes, hl, Res.map_ok, this]
end

end Golearn
