import Verif.Proofs.OneVsAll
import Verif.Proofs.Tree

/-! # C67: one-vs-all chooses a most confident class -/

namespace Golearn

section
variable {K : Type} [LinearOrder K] [Zero K] {num : U64 → Option K}

/-- What `Predict` stores: the number of the class chosen. -/
theorem ova_predict (m : OneVsAll) {k : Nat} (hf : m.filters.length = k) (hcs : m.classifiers.length = k)
    (hmax : m.maxVal.toNat + 1 = k) {ord : Nat → List FAttr → List FAttr} {what : Grid} {n p : Nat} {nm : String}
    {vs : List String} {y : Nat → Nat → Option K} (hO : m.Outputs num ord what n y) (hw : what.size.2 = n)
    (hc : what.allClassAttributes = [⟨p, .cat nm vs⟩]) {srt : List Spec → List Spec} (hsrt : ∀ l, (srt l).Perm l)
    (pg : Nat) :
    ∃ d, m.predict num pg srt ord what = Res.ok d ∧ PredVec d n ⟨p, .cat nm vs⟩ ∧
      ∀ r, r < n → ∃ j, MostConfident k (fun i => y i r) j ∧
        d.get ⟨some 0, 0, ⟨p, .cat nm vs⟩⟩ r = Res.ok (packU64 (BitVec.ofNat 64 j)) := by
  obtain ⟨ret, g1, g2, _⟩ := generate_spec pg hw hc
  have hone : ∀ (g : Grid) (a : Attr) s, g.allClassAttributes = [a] → g.getAttribute a = Res.ok s →
      g.resolve srt g.allClassAttributes = Res.ok [s] := by
    intro g a s h1 h2
    rw [h1]
    simp only [Grid.resolve, Grid.resolveUnsorted, mapRes, h2, Res.bind_ok, Res.map_ok]
    rw [List.perm_singleton.1 (hsrt [s])]
  have hask : ∀ i ∈ List.range (m.maxVal.toNat + 1), ∃ q, m.ask srt ord what i = Res.ok q ∧
      ∀ r, r < n → ∃ u, q.1.get q.2 r = Res.ok (packU64 u) ∧ num u = y i r := by
    intro i hi
    have hik : i < k := by have := List.mem_range.1 hi; omega
    have e1 := List.getElem?_eq_getElem (l := m.filters) (i := i) (by omega)
    have e2 := List.getElem?_eq_getElem (l := m.classifiers) (i := i) (by omega)
    obtain ⟨out, a, o1, o2, o3, o4, o5⟩ := hO i _ _ e1 e2
    obtain ⟨s, s1, s2, s3⟩ := o2.read a o4
    refine ⟨(out, s), ?_, ?_⟩
    · simp only [OneVsAll.ask, e1, e2, o1, Res.bind_ok, hone out a s o3 s1]
    · intro r hr
      obtain ⟨u, u1, u2⟩ := o5 r hr
      exact ⟨u, by rw [s3 r hr, u1], u2⟩
  obtain ⟨outs, a1, a2⟩ := mapRes_forall₂ _ hask
  have hlen : outs.length = k := by
    rw [← a2.length_eq, List.length_range, hmax]
  have hch : ∀ r, r < n → ∃ b, ovaChoose num r outs 0 (0, 0) = Res.ok b ∧ MostConfident k (fun i => y i r) b.1 := by
    intro r hr
    obtain ⟨b, b1, b2, b3, b4⟩ := ovaChoose_spec (num := num) r (fun i => y i r) outs 0 (0, 0) (by
      intro i q hq
      have hi : i < outs.length := (List.getElem?_eq_some_iff.1 hq).1
      have hir : i < (List.range (m.maxVal.toNat + 1)).length := by rw [a2.length_eq]; exact hi
      have := (List.forall₂_iff_get.1 a2).2 i hir hi
      simp only [List.get_eq_getElem, List.getElem_range] at this
      obtain ⟨u, u1, u2⟩ := this r hr
      rw [(List.getElem?_eq_some_iff.1 hq).2] at u1
      exact ⟨u, u1, by rw [u2, Nat.zero_add]⟩)
    refine ⟨b, b1, ?_, ?_, ?_, ?_⟩
    · rcases b4 with h | ⟨i, h1, h2, _⟩
      · rw [h]; show 0 < k; omega
      · omega
    · intro i x hi hx hpos
      have hle := b3 i (by omega) x (by simpa using hx)
      rcases b4 with h | ⟨i', h1, h2, h3, _⟩
      · rw [h] at hle
        exact absurd (lt_of_lt_of_le hpos hle) (lt_irrefl _)
      · exact ⟨b.2, by rw [h2]; exact h3, hle⟩
    · intro hall
      rcases b4 with h | ⟨i', h1, h2, h3, h4⟩
      · rw [h]
      · exact absurd (lt_of_lt_of_le h4.1 (hall i' _ (by omega) (by simpa using h3))) (lt_irrefl _)
    · intro i x z hij hx hz
      rcases b4 with h | ⟨i', h1, h2, h3, h4, h5⟩
      · rw [h] at hij; cases hij
      · rw [Nat.zero_add] at h2 h3
        rw [h2, h3, Option.some.injEq] at hz
        rw [← hz]
        exact h5 i x (by omega) (by simpa using hx)
  obtain ⟨d', r1, r2, r3⟩ := ovaRows_spec outs _ hch (List.range n) (fun r hr => List.mem_range.1 hr) [] (by simp) ret g2
    (by simp)
  refine ⟨d', ?_, r2, fun r hr => r3 r (Or.inr (List.mem_range.2 hr))⟩
  have hspec := hone (.dense ret) _ _ g2.classes g2.lookup
  have hsz : ret.size.2 = n := by simp only [Dense.size, g2.rows]
  simp only [OneVsAll.predict, g1, Res.bind_ok]
  rw [if_neg (by
    rintro (h | ⟨_, h⟩)
    · omega
    · rw [h] at hf; simp at hf; omega)]
  simp only [a1, Res.bind_ok, Grid.allClassAttributes] at hspec ⊢
  rw [hspec]
  simp only [Res.bind_ok, hsz, r1]

/-- What `Fit` keeps. -/
theorem ova_fit {train : String → Option Grid → Res (Grid → Res Grid)} {fresh : Attr → Nat}
    {ord : Nat → List FAttr → List FAttr} {g : Grid} {c : Attr} {nm : String} {vs : List String}
    (hcl : g.allClassAttributes = [c]) (hcb : c.body = .cat nm vs) (hnd : vs.Nodup) (hb : vs.length ≤ 2 ^ 64)
    {m : OneVsAll} (h : OneVsAll.fit train fresh ord g = Res.ok m) :
    2 ≤ vs.length ∧ m.filters.length = vs.length ∧ m.classifiers.length = vs.length ∧ m.maxVal.toNat + 1 = vs.length ∧
      (∀ i, i < vs.length → m.filters[i]? = some ⟨ovaAttrs fresh g.allAttributes c, c, BitVec.ofNat 64 i⟩) ∧
      ∀ i s, vs[i]? = some s → ∃ f, m.classifiers[i]? = some f ∧
        train s (if g.size.2 = 0 then none else some (Grid.newFiltered g
          ((⟨ovaAttrs fresh g.allAttributes c, c, BitVec.ofNat 64 i⟩ : OvaFilter).filter (ord i)))) = Res.ok f := by
  obtain ⟨v, v1, v2⟩ := ovaHighest_eq vs hnd hb
  unfold OneVsAll.fit at h
  rw [hcl] at h
  simp only [hcb, v1, Res.bind_ok] at h
  by_cases hv : v = 0#64
  · rw [if_pos hv] at h; cases h
  · rw [if_neg hv, Res.map_eq_ok] at h
    obtain ⟨cs, h1, rfl⟩ := h
    have hv0 : v.toNat ≠ 0 := fun e => hv (BitVec.eq_of_toNat_eq (by rw [e]; rfl))
    have hlen : v.toNat + 1 = vs.length := by omega
    have hf := (mapRes_eq_ok _ _ _).1 h1
    have hcl2 : cs.length = vs.length := by rw [← hf.length_eq, List.length_range, hlen]
    refine ⟨by omega, by simp [hlen], hcl2, hlen, ?_, ?_⟩
    · intro i hi
      rw [List.getElem?_map, List.getElem?_range (by omega)]
      rfl
    · intro i s hs
      have hi := (List.getElem?_eq_some_iff.1 hs).1
      have hic : i < cs.length := by omega
      refine ⟨cs[i], List.getElem?_eq_getElem hic, ?_⟩
      have hir : i < (List.range (v.toNat + 1)).length := by rw [List.length_range]; omega
      have := (List.forall₂_iff_get.1 hf).2 i hir hic
      simp only [List.get_eq_getElem, List.getElem_range, ovaTrain, hs] at this
      exact this

/-- For every model trained on data with one categorical class and every data set with the same class attribute: if
the classifiers answer, every row gets one of the trained classes, and it is one of the greatest output if any output is
positive. -/
theorem C67_most_confident {train : String → Option Grid → Res (Grid → Res Grid)} {fresh : Attr → Nat}
    {ord ord' : Nat → List FAttr → List FAttr} {g what : Grid} {n p : Nat} {nm : String} {vs : List String}
    (hcl : g.allClassAttributes = [⟨p, .cat nm vs⟩]) (hnd : vs.Nodup) (hb : vs.length ≤ 2 ^ 64)
    {m : OneVsAll} (h : OneVsAll.fit train fresh ord g = Res.ok m)
    (hw : what.size.2 = n) (hc : what.allClassAttributes = [⟨p, .cat nm vs⟩]) {y : Nat → Nat → Option K}
    (hO : m.Outputs num ord' what n y) {srt : List Spec → List Spec} (hsrt : ∀ l, (srt l).Perm l) (pg : Nat)
    (fo : FloatOps) :
    ∃ d, m.predict num pg srt ord' what = Res.ok d ∧ (Grid.dense d).size.2 = n ∧
      ∀ r, r < n → ∃ j s, vs[j]? = some s ∧ getClass fo (.dense d) r = Res.ok s ∧
        MostConfident vs.length (fun i => y i r) j := by
  obtain ⟨_, f1, f2, f3, _⟩ := ova_fit hcl rfl hnd hb h
  obtain ⟨d, d1, d2, d3⟩ := ova_predict m f1 f2 f3 hO hw hc hsrt pg
  refine ⟨d, d1, d2.rows, ?_⟩
  intro r hr
  obtain ⟨j, j1, j2⟩ := d3 r hr
  have hj := j1.known
  refine ⟨j, vs[j], List.getElem?_eq_getElem hj, ?_, j1⟩
  rw [d2.getClass, j2]
  simp only [Res.bind_ok, Attr.getString]
  exact catGetString_pack (by omega) (List.getElem?_eq_getElem hj)

/-- Each classifier is trained on the rows of the data, with the number `1.0` where the row has the classifier's own
class and `0.0` elsewhere. -/
theorem C67_training {train : String → Option Grid → Res (Grid → Res Grid)} {fresh : Attr → Nat}
    {ord : Nat → List FAttr → List FAttr} {g : Grid} {n : Nat} {c : Attr} {nm : String} {vs : List String}
    (P : g.Presents n) (hd : g.distinct) (hn : 0 < n) (hcl : g.allClassAttributes = [c]) (hc : c ∈ g.allAttributes)
    (hcb : c.body = .cat nm vs) (hcv : ∀ r, r < n → ∃ u, g.cell c r = packU64 u) (hno : NoNameClash g c)
    (hnd : vs.Nodup) (hb : vs.length ≤ 2 ^ 64) (hord : ∀ i l, (ord i l).Perm l)
    {m : OneVsAll} (h : OneVsAll.fit train fresh ord g = Res.ok m) (i : Nat) (s : String) (hs : vs[i]? = some s) :
    ∃ f v, m.classifiers[i]? = some f ∧ train s (some v) = Res.ok f ∧ MarksClass g v n c i := by
  obtain ⟨_, _, _, _, _, f5⟩ := ova_fit hcl hcb hnd hb h
  obtain ⟨f, f6, f7⟩ := f5 i s hs
  rw [if_neg (by rw [P.rows]; omega)] at f7
  exact ⟨f, _, f6, f7, ova_marks P hd hcl hc hcb hcv hno (hord i) i⟩

/-- `Fit` succeeds for every class attribute of at least two values, as long as the classifiers can be made; it panics
if there is just one value. -/
theorem C67_fit {train : String → Option Grid → Res (Grid → Res Grid)} {fresh : Attr → Nat}
    {ord : Nat → List FAttr → List FAttr} {g : Grid} {p : Nat} {nm : String} {vs : List String}
    (hcl : g.allClassAttributes = [⟨p, .cat nm vs⟩]) (hnd : vs.Nodup) (hb : vs.length ≤ 2 ^ 64)
    (ht : ∀ s v, ∃ f, train s v = Res.ok f) :
    (2 ≤ vs.length → ∃ m, OneVsAll.fit train fresh ord g = Res.ok m) ∧
      (vs.length < 2 → OneVsAll.fit train fresh ord g = Res.panic) := by
  obtain ⟨v, v1, v2⟩ := ovaHighest_eq vs hnd hb
  unfold OneVsAll.fit
  rw [hcl]
  simp only [v1, Res.bind_ok]
  constructor
  · intro h2
    rw [if_neg (by intro e; rw [e] at v2; simp at v2; omega)]
    obtain ⟨cs, c1, _⟩ := mapRes_forall₂ (R := fun _ _ => True)
      (f := ovaTrain train vs g fun i =>
        (⟨ovaAttrs fresh g.allAttributes ⟨p, .cat nm vs⟩, ⟨p, .cat nm vs⟩, BitVec.ofNat 64 i⟩ : OvaFilter).filter (ord i))
      (List.range (v.toNat + 1)) (by
        intro i hi
        have : i < vs.length := by have := List.mem_range.1 hi; omega
        simp only [ovaTrain, List.getElem?_eq_getElem this]
        obtain ⟨f, hf⟩ := ht vs[i] (if g.size.2 = 0 then none else some (Grid.newFiltered g
            ((⟨ovaAttrs fresh g.allAttributes ⟨p, .cat nm vs⟩, ⟨p, .cat nm vs⟩, BitVec.ofNat 64 i⟩ : OvaFilter).filter (ord i))))
        exact ⟨f, hf, trivial⟩)
    rw [c1]
    exact ⟨_, rfl⟩
  · intro h2
    rw [if_pos]
    exact BitVec.eq_of_toNat_eq (by rw [v2]; show _ = 0; omega)

/-- If a classifier reports an error and those before it succeed, `Predict` reports an error. -/
theorem C67_reports_errors (m : OneVsAll) {k : Nat} (hf : m.filters.length = k) (hmax : m.maxVal.toNat + 1 = k)
    {ord : Nat → List FAttr → List FAttr} {what : Grid} {n p : Nat} {nm : String}
    {vs : List String} (hw : what.size.2 = n)
    (hc : what.allClassAttributes = [⟨p, .cat nm vs⟩]) {srt : List Spec → List Spec} (pg : Nat) (i : Nat) (hi : i < k)
    (hbefore : ∀ j, j < i → ∃ q, m.ask srt ord what j = Res.ok q) (f : OvaFilter) (c : Grid → Res Grid)
    (h1 : m.filters[i]? = some f) (h2 : m.classifiers[i]? = some c)
    (herr : c (Grid.newFiltered what (f.filter (ord i))) = Res.err) :
    m.predict num pg srt ord what = Res.err := by
  obtain ⟨ret, g1, g2, _⟩ := generate_spec pg hw hc
  have hask : m.ask srt ord what i = Res.err := by
    simp only [OneVsAll.ask, h1, h2, herr, Res.bind_err]
  have hloop : ∀ (f : Nat → Res (Grid × Spec)) (l l' : List Nat), (∀ j ∈ l, ∃ q, f j = Res.ok q) → f i = Res.err →
      mapRes f (l ++ i :: l') = Res.err := by
    intro f l l' hl he
    induction l with
    | nil => simp only [List.nil_append, mapRes, he, Res.bind_err]
    | cons x xs ih =>
      obtain ⟨q, hq⟩ := hl x List.mem_cons_self
      simp only [List.cons_append, mapRes, hq, Res.bind_ok, ih (fun j hj => hl j (List.mem_cons_of_mem _ hj)),
        Res.bind_err]
  have hr : List.range (m.maxVal.toNat + 1) = List.range i ++ i :: List.range' (i + 1) (k - i - 1) := by
    rw [hmax, List.range_eq_range', List.range_eq_range', show k = i + (1 + (k - i - 1)) by omega,
      ← List.range'_append_1, ← List.range'_append_1]
    simp [Nat.add_comm]
  simp only [OneVsAll.predict, g1, Res.bind_ok]
  rw [if_neg (by
    rintro (h | ⟨_, h⟩)
    · omega
    · rw [h] at hf; simp at hf; omega), hr,
    hloop _ _ _ (fun j hj => hbefore j (List.mem_range.1 hj)) hask]
  rfl

end

section Examples
private def fa : Attr := ⟨0, .float "a" 2⟩
private def fc : Attr := ⟨1, .cat "c" ["x", "y"]⟩
private def fo : Attr := ⟨2, .float "c" 2⟩
private def ops1 : List Op := [.add fa, .add fc, .extend 2, .set 1 1 (packU64 1), .addClass fc]
private def opsOut : List Op := [.add fo, .extend 2, .set 0 1 (packU64 f64One), .addClass fo]
private def opsZero : List Op := [.add fo, .extend 2, .addClass fo]

/-- Bit patterns read as `1` for `1.0` and `0` otherwise, which is enough for the example. -/
def exampleNum (u : U64) : Option Int := some (if u = f64One then 1 else 0)

/-- A trained model of two classes and its outputs: the classifier of the second class is sure of the second row, and
there is no other positive output. -/
theorem ova_example : ∃ (train : String → Option Grid → Res (Grid → Res Grid)) (g : Grid) (m : OneVsAll),
    g.Presents 2 ∧ g.distinct ∧ g.allClassAttributes = [⟨1, .cat "c" ["x", "y"]⟩] ∧
    (⟨1, .cat "c" ["x", "y"]⟩ : Attr) ∈ g.allAttributes ∧
    (∀ r, r < 2 → ∃ u, g.cell ⟨1, .cat "c" ["x", "y"]⟩ r = packU64 u) ∧ NoNameClash g ⟨1, .cat "c" ["x", "y"]⟩ ∧
    OneVsAll.fit train (fun _ => 5) (fun _ l => l) g = Res.ok m ∧ m.maxVal = 1#64 ∧
    ∀ what ord, m.Outputs exampleNum ord what 2 (fun i r => some (if i = 1 ∧ r = 1 then 1 else 0)) := by
  have hw : ∃ st so sz spo spz, run 4096 ops1 = Res.ok st ∧ (∀ op ∈ ops1, basicOp op = true) ∧
      (addedAttrs ops1).Pairwise (fun a b => a.equals b = false) ∧ totalRows ops1 = 2 ∧
      st.d.allClassAttributes = [fc] ∧ st.d.allAttributes = [fa, fc] ∧
      (Grid.dense st.d).cell fc 0 = packU64 0 ∧ (Grid.dense st.d).cell fc 1 = packU64 1 ∧
      run 4096 opsOut = Res.ok so ∧ (∀ op ∈ opsOut, basicOp op = true) ∧
      (addedAttrs opsOut).Pairwise (fun a b => a.equals b = false) ∧ totalRows opsOut = 2 ∧
      so.d.allClassAttributes = [fo] ∧ so.d.allAttributes = [fo] ∧ so.d.getAttribute fo = Res.ok spo ∧
      so.d.get spo 0 = Res.ok (packU64 0) ∧ so.d.get spo 1 = Res.ok (packU64 f64One) ∧
      run 4096 opsZero = Res.ok sz ∧ (∀ op ∈ opsZero, basicOp op = true) ∧
      (addedAttrs opsZero).Pairwise (fun a b => a.equals b = false) ∧ totalRows opsZero = 2 ∧
      sz.d.allClassAttributes = [fo] ∧ sz.d.allAttributes = [fo] ∧ sz.d.getAttribute fo = Res.ok spz ∧
      sz.d.get spz 0 = Res.ok (packU64 0) ∧ sz.d.get spz 1 = Res.ok (packU64 0) := by
    refine ⟨_, _, _, _, _, rfl, ?_, ?_, ?_, ?_, ?_, ?_, ?_, rfl, ?_, ?_, ?_, ?_, ?_, rfl, ?_, ?_, rfl, ?_, ?_, ?_, ?_, ?_,
      rfl, ?_, ?_⟩
    all_goals decide +kernel
  obtain ⟨st, so, sz, spo, spz, hrun, hb, hd, h2, hcl, hat, hc0, hc1, orun, ob, od, o2, ocl, oat, osp, og0, og1, zrun, zb, zd,
    z2, zcl, zat, zsp, zg0, zg1⟩ := hw
  have D := denseOK_run hb hrun hd
  rw [h2] at D
  have O := denseOK_run ob orun od
  rw [o2] at O
  have Z := denseOK_run zb zrun zd
  rw [z2] at Z
  let train : String → Option Grid → Res (Grid → Res Grid) := fun s _ =>
    Res.ok fun _ => Res.ok (.dense (if s = "y" then so.d else sz.d))
  obtain ⟨hfit, _⟩ := C67_fit (train := train) (fresh := fun _ => 5) (ord := fun _ l => l) (g := .dense st.d)
    (p := 1) (nm := "c") (vs := ["x", "y"]) hcl (by decide) (by decide) (fun s v => ⟨_, rfl⟩)
  obtain ⟨m, hm⟩ := hfit (by decide)
  obtain ⟨_, f1, f2, f3, _, f5⟩ := ova_fit (g := .dense st.d) (c := fc) hcl rfl (by decide) (by decide) hm
  refine ⟨train, .dense st.d, m, D.presents, D.1, hcl, ?_, ?_, ?_, hm, ?_, ?_⟩
  · show fc ∈ st.d.allAttributes
    rw [hat]; simp
  · intro r hr
    rcases (by omega : r = 0 ∨ r = 1) with rfl | rfl
    · exact ⟨0, hc0⟩
    · exact ⟨1, hc1⟩
  · intro a ha pr
    have ha' : a ∈ st.d.allAttributes := ha
    rw [hat] at ha'
    simp only [List.mem_cons, List.not_mem_nil, or_false] at ha'
    rcases ha' with rfl | rfl
    · simp [fa, Attr.name]
    · simp [fc]
  · exact BitVec.eq_of_toNat_eq (by simp at f3; rw [f3]; rfl)
  · intro what ord i f c hf hc
    have hi : i < 2 := by
      have := (List.getElem?_eq_some_iff.1 hc).1
      rw [f2] at this; exact this
    rcases (by omega : i = 0 ∨ i = 1) with rfl | rfl
    · obtain ⟨c', e1, e2⟩ := f5 0 "x" rfl
      rw [hc, Option.some.injEq] at e1
      subst e1
      simp only [train, Res.ok.injEq] at e2
      subst e2
      refine ⟨.dense sz.d, fo, rfl, Z.presents, zcl, ?_, ?_⟩
      · show fo ∈ sz.d.allAttributes
        rw [zat]; simp
      · intro r hr
        have hcell : (Grid.dense sz.d).cell fo r = packU64 0 := by
          rcases (by omega : r = 0 ∨ r = 1) with rfl | rfl
          · simp only [Grid.cell, Grid.getAttribute, zsp, Grid.get, zg0]
          · simp only [Grid.cell, Grid.getAttribute, zsp, Grid.get, zg1]
        exact ⟨0, hcell, by simp [exampleNum, f64One]⟩
    · obtain ⟨c', e1, e2⟩ := f5 1 "y" rfl
      rw [hc, Option.some.injEq] at e1
      subst e1
      simp only [train, Res.ok.injEq] at e2
      subst e2
      refine ⟨.dense so.d, fo, rfl, O.presents, ocl, ?_, ?_⟩
      · show fo ∈ so.d.allAttributes
        rw [oat]; simp
      · intro r hr
        rcases (by omega : r = 0 ∨ r = 1) with rfl | rfl
        · exact ⟨0, by simp only [Grid.cell, Grid.getAttribute, osp, Grid.get, og0], by simp [exampleNum, f64One]⟩
        · exact ⟨f64One, by simp only [Grid.cell, Grid.getAttribute, osp, Grid.get, og1], by simp [exampleNum]⟩

/-- With two classes, of outputs 1 and 3, the second is chosen; with none positive, the first. -/
example : MostConfident 2 (fun i => some (if i = 0 then (1 : Int) else 3)) 1 ∧
    MostConfident 2 (fun _ => some (-1 : Int)) 0 := by
  refine ⟨⟨by decide, ?_, ?_, ?_⟩, ⟨by decide, ?_, fun _ => rfl, by omega⟩⟩
  · intro i x _ hx _
    refine ⟨3, rfl, ?_⟩
    simp only [Option.some.injEq] at hx
    rw [← hx]; split <;> decide
  · intro h
    have := h 1 3 (by decide) rfl
    revert this; decide
  · intro i x b hi hx hb
    simp only [Option.some.injEq] at hx hb
    rw [← hx, ← hb, if_pos (by omega)]; decide
  · intro i x _ hx hp
    simp only [Option.some.injEq] at hx
    subst hx
    revert hp; decide
end Examples

end Golearn
