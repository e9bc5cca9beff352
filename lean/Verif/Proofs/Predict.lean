import Verif.Model.Predict
import Verif.Proofs.Group
import Verif.Props.C01
import Verif.Props.C28
import Verif.Props.C29

/-! # Prediction vectors -/

namespace Golearn

/-- Instances with a single attribute, stored in eight bytes, that is the class. -/
structure PredVec (d : Dense) (n : Nat) (a : Attr) : Prop where
  group : ∃ g, d.ags = [g] ∧ g.kind = .fixed 8 ∧ g.attrs = [a] ∧ g.Sized n
  cls : d.classAttrs = [(⟨some 0, 0, a⟩, true)]
  rows : d.maxRow = n

theorem PredVec.classes {d : Dense} {n : Nat} {a : Attr} (h : PredVec d n a) : d.allClassAttributes = [a] := by
  unfold Dense.allClassAttributes
  rw [h.cls]; rfl

theorem PredVec.lookup {d : Dense} {n : Nat} {a : Attr} (h : PredVec d n a) :
    d.getAttribute a = Res.ok ⟨some 0, 0, a⟩ := by
  obtain ⟨g, e1, _, e2, _⟩ := h.group
  unfold Dense.getAttribute
  rw [e1]
  simp [Dense.findInGroups, e2, Dense.findInGroup, C28_equals_refl]

theorem PredVec.getClass {fo : FloatOps} {d : Dense} {n : Nat} {a : Attr} (h : PredVec d n a) (r : Nat) :
    Golearn.getClass fo (.dense d) r = (d.get ⟨some 0, 0, a⟩ r).bind fun v => a.getString fo v := by
  unfold Golearn.getClass
  show (match d.allClassAttributes with
    | [a] => (d.getAttribute a).orPanic.bind fun s => (d.get s r).bind fun v => a.getString fo v
    | _ => Res.panic) = _
  rw [h.classes]
  simp only [h.lookup, Res.orPanic, Res.bind]

theorem PredVec.set {d : Dense} {n : Nat} {a : Attr} (h : PredVec d n a) (b : Attr) {r : Nat} (hr : r < n)
    {v : Bytes} (hv : v.length = 8) :
    ∃ d', (d.retype a b).set ⟨some 0, 0, b⟩ r v = Res.ok d' ∧ PredVec d' n b ∧
      d'.get ⟨some 0, 0, b⟩ r = Res.ok v ∧
      ∀ r', r' < n → r' ≠ r → d'.get ⟨some 0, 0, b⟩ r' = d.get ⟨some 0, 0, a⟩ r' := by
  obtain ⟨g, e1, e2, e3, e4⟩ := h.group
  have hattrs : (g.attrs.map (changeAttr a b)) = [b] := by rw [e3]; simp [changeAttr]
  set g0 : Group := { g with attrs := g.attrs.map (changeAttr a b) } with hg0
  have hs0 : g0.Sized n := by
    unfold Group.Sized at e4 ⊢
    rw [hg0]
    simp only [Group.rowSize, e2, List.length_map] at e4 ⊢
    exact e4
  have hget0 : ∀ r', g0.get 0 r' = g.get 0 r' := by
    intro r'
    rw [hg0]
    simp [Group.get, e2, Group.offset, Group.rowSize]
  obtain ⟨g', s1, s2, s3, s4, s5, s6⟩ := Group.set_spec (g := g0) (rows := n) (col := 0) (row := r) (v := v) hs0
    (by rw [hg0]; simp only [hattrs]; simp) hr (by rw [hg0]; simp only [e2]; exact hv)
  have hk0 : g0.kind = .fixed 8 := e2
  have hags : (d.retype a b).ags = [g0] := by
    unfold Dense.retype
    simp only [e1, List.map_cons, List.map_nil]
    rfl
  refine ⟨{ d.retype a b with ags := [g'] }, ?_, ⟨⟨g', rfl, ?_, ?_, s4⟩, ?_, h.rows⟩, ?_, ?_⟩
  · unfold Dense.set
    simp only [hags, List.getElem?_cons_zero, s1, Res.map, Res.bind]
    rfl
  · rw [s2]; exact e2
  · rw [s3]; exact hattrs
  · show List.map _ d.classAttrs = _
    rw [h.cls]
    simp [changeAttr]
  · unfold Dense.get
    simp only [List.getElem?_cons_zero, s5, hk0]
    rfl
  · intro r' hr' hne
    unfold Dense.get
    simp only [List.getElem?_cons_zero, e1]
    rw [s6 0 r' (by simp only [hg0, hattrs]; simp) hr' (by simp [hne])]
    exact hget0 r'

theorem catIntern_spec (vs : List String) (s : String) :
    vs <+: (catIntern vs s).2 ∧ (catIntern vs s).2.length ≤ vs.length + 1 ∧
    (∀ x ∈ (catIntern vs s).2, x ∈ vs ∨ x = s) ∧
    ∃ i, (catIntern vs s).1 = packU64 (BitVec.ofNat 64 i) ∧ i < (catIntern vs s).2.length ∧
      (catIntern vs s).2[i]? = some s := by
  unfold catIntern
  rw [findValue_eq]
  by_cases h : s ∈ vs
  · simp only [h, if_true, Nat.zero_add]
    have hi := List.idxOf_lt_length_iff.2 h
    refine ⟨List.prefix_refl _, by omega, fun x hx => Or.inl hx, _, rfl, hi, ?_⟩
    rw [List.getElem?_eq_getElem hi, List.getElem_idxOf]
  · simp only [h, if_false]
    refine ⟨List.prefix_append _ _, by simp, ?_, vs.length, by simp, by simp, by simp⟩
    intro x hx
    simpa using hx

theorem catGetString_pack {vs : List String} {i : Nat} {s : String} (hi : i < 2 ^ 64) (h : vs[i]? = some s) :
    catGetString vs (packU64 (BitVec.ofNat 64 i)) = Res.ok s := by
  unfold catGetString
  rw [C01_unpack_pack]
  simp only [Res.bind, BitVec.toNat_ofNat, Nat.mod_eq_of_lt hi, h]

theorem catGetString_mono {vs ws : List String} (hp : vs <+: ws) {raw : Bytes} {s : String}
    (h : catGetString vs raw = Res.ok s) : catGetString ws raw = Res.ok s := by
  unfold catGetString at h ⊢
  rw [Res.bind_eq_ok] at h ⊢
  obtain ⟨u, hu, h⟩ := h
  refine ⟨u, hu, ?_⟩
  obtain ⟨t, rfl⟩ := hp
  split at h
  · rename_i x hx
    have hlt := (List.getElem?_eq_some_iff.1 hx).1
    rw [List.getElem?_append_left hlt, hx]
    exact h
  · cases h

/-- Writing a class label into a prediction vector. -/
theorem PredVec.setClass {fo : FloatOps} {parse : String → Option U64} {d : Dense} {n p : Nat} {nm : String}
    {vs : List String} (h : PredVec d n ⟨p, .cat nm vs⟩) {r : Nat} (hr : r < n) (hb : vs.length < 2 ^ 64) (c : String) :
    ∃ d' vs', Golearn.setClass fo parse d r c = Res.ok d' ∧ PredVec d' n ⟨p, .cat nm vs'⟩ ∧
      vs <+: vs' ∧ vs'.length ≤ vs.length + 1 ∧ (∀ x ∈ vs', x ∈ vs ∨ x = c) ∧
      Golearn.getClass fo (.dense d') r = Res.ok c ∧
      ∀ r', r' < n → r' ≠ r → ∀ s, Golearn.getClass fo (.dense d) r' = Res.ok s →
        Golearn.getClass fo (.dense d') r' = Res.ok s := by
  obtain ⟨i1, i2, i3, i, i4, i5, i6⟩ := catIntern_spec vs c
  obtain ⟨d', s1, s2, s3, s4⟩ := h.set ⟨p, .cat nm (catIntern vs c).2⟩ hr (v := (catIntern vs c).1)
    (by rw [i4]; exact packU64_length _)
  refine ⟨d', _, ?_, s2, i1, i2, i3, ?_, ?_⟩
  · unfold Golearn.setClass
    rw [h.classes]
    simp only [h.lookup, Res.orPanic, Res.bind, Attr.fromString]
    exact s1
  · rw [s2.getClass, s3]
    simp only [Res.bind, Attr.getString]
    rw [i4]
    exact catGetString_pack (by omega) i6
  · intro r' hr' hne s hs
    rw [h.getClass] at hs
    rw [s2.getClass, s4 r' hr' hne]
    rw [Res.bind_eq_ok] at hs ⊢
    obtain ⟨v, hv, hs⟩ := hs
    exact ⟨v, hv, catGetString_mono i1 hs⟩

/-- The prediction vector for a class that is not binary: one column of zeros. -/
theorem generate_any (pg : Nat) {g : Grid} {n : Nat} {a : Attr} (hbin : a.isBin = false) (hn : g.size.2 = n)
    (hc : g.allClassAttributes = [a]) :
    ∃ d, generatePredictionVector pg g = Res.ok d ∧ PredVec d n a ∧
      ∀ r, r < n → d.get ⟨some 0, 0, a⟩ r = Res.ok (List.replicate 8 0#8) := by
  unfold generatePredictionVector
  rw [hc, hn]
  have hadd : ∃ d1 s, Dense.addAttribute pg Dense.new a = Res.ok (d1, s) ∧
      d1.ags = [⟨.fixed 8, [a], []⟩] ∧ d1.classAttrs = [] ∧ d1.maxRow = 0 := by
    obtain ⟨p, body⟩ := a
    cases body with
    | cat nm vs =>
      refine ⟨⟨[("CAT" ++ toString (8 / pg), 0)], [(0, "CAT" ++ toString (8 / pg))], [⟨.fixed 8, [⟨p, .cat nm vs⟩], []⟩], false, [],
        0, [⟨p, .cat nm vs⟩], 0, 8, 0⟩, ⟨some 0, 0, ⟨p, .cat nm vs⟩⟩, ?_, rfl, rfl, rfl⟩
      unfold Dense.addAttribute Dense.new Dense.chooseGroup
      simp [GoMap.get?, Dense.createGroup, GoMap.set, Res.bind, Dense.pushAttr, Group.addAttr]
    | float nm pr =>
      refine ⟨⟨[("FLOAT" ++ toString (8 / pg), 0)], [(0, "FLOAT" ++ toString (8 / pg))], [⟨.fixed 8, [⟨p, .float nm pr⟩], []⟩], false, [],
        0, [⟨p, .float nm pr⟩], 8, 0, 0⟩, ⟨some 0, 0, ⟨p, .float nm pr⟩⟩, ?_, rfl, rfl, rfl⟩
      unfold Dense.addAttribute Dense.new Dense.chooseGroup
      simp [GoMap.get?, Dense.createGroup, GoMap.set, Res.bind, Dense.pushAttr, Group.addAttr]
    | bin nm => cases hbin
  obtain ⟨d1, s, e1, e2, e3, e4⟩ := hadd
  have hget : d1.getAttribute a = Res.ok ⟨some 0, 0, a⟩ := by
    unfold Dense.getAttribute
    rw [e2]
    simp [Dense.findInGroups, Dense.findInGroup, C28_equals_refl]
  have hcls : d1.addClassAttribute a = Res.ok { d1 with classAttrs := [(⟨some 0, 0, a⟩, true)] } := by
    unfold Dense.addClassAttribute
    rw [hget, e3]; rfl
  have hpred : predAttrs pg Dense.new [a] = Res.ok { d1 with classAttrs := [(⟨some 0, 0, a⟩, true)] } := by
    unfold predAttrs
    rw [e1]
    simp only [Res.bind, hcls]
    rfl
  rw [hpred]
  set g0 : Group := ⟨.fixed 8, [a], []⟩ with hg0
  have hs0 : g0.Sized 0 := by simp [Group.Sized, hg0]
  have hsz := Group.resize_sized (more := n) hs0
  rw [Nat.zero_add] at hsz
  refine ⟨_, rfl, ⟨⟨g0.resize (n * g0.rowSize), ?_, rfl, rfl, hsz⟩, rfl, ?_⟩, ?_⟩
  · simp only [Dense.extend, e2, List.map_cons, List.map_nil]
  · simp only [Dense.extend, e4, Nat.zero_add]
  · intro r hr
    unfold Dense.get
    simp only [Dense.extend, e2, List.map_cons, List.map_nil, List.getElem?_cons_zero]
    exact Group.get_resize_new hs0 (by simp [hg0]) (Nat.zero_le _) (by omega)

theorem generate_spec (pg : Nat) {g : Grid} {n p : Nat} {nm : String} {vs : List String} (hn : g.size.2 = n)
    (hc : g.allClassAttributes = [⟨p, .cat nm vs⟩]) :
    ∃ d, generatePredictionVector pg g = Res.ok d ∧ PredVec d n ⟨p, .cat nm vs⟩ ∧
      ∀ r, r < n → d.get ⟨some 0, 0, ⟨p, .cat nm vs⟩⟩ r = Res.ok (List.replicate 8 0#8) :=
  generate_any pg rfl hn hc

/-- A value is written to a row of the class column. -/
theorem PredVec.write {d : Dense} {n : Nat} {a : Attr} (h : PredVec d n a) {r : Nat} (hr : r < n)
    {v : Bytes} (hv : v.length = 8) :
    ∃ d', d.set ⟨some 0, 0, a⟩ r v = Res.ok d' ∧ PredVec d' n a ∧ d'.get ⟨some 0, 0, a⟩ r = Res.ok v ∧
      ∀ r', r' < n → r' ≠ r → d'.get ⟨some 0, 0, a⟩ r' = d.get ⟨some 0, 0, a⟩ r' := by
  have hre : d.retype a a = d := by
    have hch : changeAttr a a = id := by
      funext x
      unfold changeAttr
      split
      · rename_i h; exact h.symm
      · rfl
    unfold Dense.retype
    rw [hch]
    simp
  have := h.set a hr hv
  rwa [hre] at this

end Golearn
