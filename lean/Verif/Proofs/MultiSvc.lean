import Verif.Spec.MultiSvc
import Verif.Proofs.SvcOva
import Verif.Props.C94
import Verif.Proofs.CsvGroups

/-! # Lemmas about linear support vector machines for several classes -/

namespace Golearn

theorem PredVec.shown {d : Dense} {n : Nat} {a : Attr} (h : PredVec d n a) {v : Nat → Bytes}
    (hv : ∀ r, r < n → d.get ⟨some 0, 0, a⟩ r = Res.ok (v r)) :
    (Grid.dense d).Presents n ∧ a ∈ (Grid.dense d).allAttributes ∧ ∀ r, r < n → (Grid.dense d).cell a r = v r := by
  have hat : (Grid.dense d).allAttributes = [a] := by
    obtain ⟨g, e1, _, e3, _⟩ := h.group
    show d.allAttributes = [a]
    unfold Dense.allAttributes
    rw [e1]
    simp [e3]
  have hlook : (Grid.dense d).getAttribute a = Res.ok ⟨some 0, 0, a⟩ := h.lookup
  have hcell : ∀ r, r < n → (Grid.dense d).cell a r = v r := by
    intro r hr
    unfold Grid.cell
    rw [hlook]
    simp only [Grid.get, hv r hr]
  refine ⟨⟨h.rows, ?_, ?_, ?_⟩, by rw [hat]; simp, hcell⟩
  · intro b hb
    rw [hat, List.mem_singleton] at hb
    subst hb
    refine ⟨_, hlook, rfl, fun r hr => ?_⟩
    rw [hcell r hr]
    exact hv r hr
  · intro o ho
    simp only [Grid.RowOrder] at ho
    rw [ho, h.rows]
  · intro specs hs
    refine ⟨rfl, ?_⟩
    intro r hr
    simp only [Grid.rowVals]
    apply mapRes_of_ok
    intro s hsm
    obtain ⟨b, hb, hg⟩ := hs s hsm
    rw [hat, List.mem_singleton] at hb
    subst hb
    rw [hlook, Res.ok.injEq] at hg
    subst hg
    rw [hcell r hr]
    exact hv r hr

section
variable {K : Type} [Field K] [LinearOrder K]

theorem multiWeights_fold (s : String) (ws : GoMap String K) (hnd : (ws.map Prod.fst).Nodup) (a b : K) :
    ws.foldl (fun t p => if p.1 ≠ s then (t.1 + p.2, t.2) else (t.1, p.2)) (a, b) =
      (a + ((ws.filter fun p => p.1 ≠ s).map Prod.snd).sum, (ws.get? s).getD b) := by
  induction ws generalizing a b with
  | nil => simp [GoMap.get?]
  | cons p ws ih =>
    obtain ⟨k, v⟩ := p
    rw [List.map_cons, List.nodup_cons] at hnd
    rw [List.foldl_cons]
    by_cases h : k = s
    · subst h
      simp only [ne_eq, not_true_eq_false, if_false]
      rw [ih hnd.2, get?_eq_none_of_not_mem hnd.1]
      simp [GoMap.get?]
    · simp only [ne_eq, h, not_false_eq_true, if_true]
      rw [ih hnd.2]
      simp [GoMap.get?, h, add_assoc]

theorem multiWeights_eq (s : String) (ws : GoMap String K) (hnd : (ws.map Prod.fst).Nodup) :
    multiWeights s ws = sideWeights ws s := by
  unfold multiWeights sideWeights
  rw [multiWeights_fold s ws hnd]
  simp

/-- A model never chooses two labels. -/
theorem Chooses.unique {m : LModel K} {x : List K} {l l' : Int} (h : Chooses m x l) (h' : Chooses m x l') : l = l' := by
  by_cases h2 : m.label.length = 2
  · match hl : m.label, h2 with
    | [a, b], _ => rw [h.1 a b hl, h'.1 a b hl]
  · obtain ⟨i, h3, h4⟩ := h.2 h2
    obtain ⟨i', h5, h6⟩ := h'.2 h2
    have hi := (List.getElem?_eq_some_iff.1 h3).1
    have hi' := (List.getElem?_eq_some_iff.1 h5).1
    have : i = i' := by
      rcases Nat.lt_trichotomy i i' with h | h | h
      · exact absurd ((h6 i hi).2 h) (not_lt.2 (h4 i' hi').1)
      · exact h
      · exact absurd ((h4 i' hi').2 h) (not_lt.2 (h6 i hi).1)
    rw [this, h5, Option.some.injEq] at h3
    exact h3.symm

theorem Chooses.label {m : LModel K} {x : List K} {l : Int} (h : Chooses m x l) : l ∈ m.label := by
  by_cases h2 : m.label.length = 2
  · match hl : m.label, h2 with
    | [a, b], _ =>
      rw [h.1 a b hl]
      split <;> simp
  · obtain ⟨i, h3, _⟩ := h.2 h2
    exact List.mem_of_getElem? h3

variable {e : MultiEnv K} {g : Grid} {n : Nat} {c : Attr} {nm : String} {vs : List String} {lab : Nat → String}

theorem MultiData.noNames (D : MultiData e.fo g n c nm vs lab) : NoNameClash g c := by
  intro a ha pr
  have : c.name = nm := by rw [Attr.name, D.body]
  rw [this]
  exact D.noClash a ha pr

/-- The cell of the class column in a row of class number `i`. -/
theorem MultiData.cellOf (D : MultiData e.fo g n c nm vs lab) {r : Nat} (hr : r < n) {i : Nat} {s : String} (hs : vs[i]? = some s) :
    g.cell c r = packU64 (BitVec.ofNat 64 i) ↔ lab r = s := by
  have hl := D.label r hr
  obtain ⟨sp, s1, _, s3⟩ := D.rows.read c D.classIn
  have hi := (List.getElem?_eq_some_iff.1 hs).1
  have hfew := D.few
  simp only [getClass, D.classAttr, s1, Res.orPanic, Res.bind_ok, s3 r hr, Attr.getString, D.body] at hl
  constructor
  · intro h
    rw [h, catGetString_pack (by omega) hs, Res.ok.injEq] at hl
    exact hl.symm
  · intro h
    subst h
    have hb : c.isBin = false := by rw [Attr.isBin, D.body]
    have hlen := D.typed c D.classIn r hr
    rw [wellFormed, hb] at hlen
    obtain ⟨v, _, hv⟩ := C01_pack_unpack (g.cell c r) (by simpa using hlen)
    rw [← hv] at hl ⊢
    rw [catGetString, C01_unpack_pack, Res.bind_ok] at hl
    cases hj : vs[v.toNat]? with
    | none => rw [hj] at hl; cases hl
    | some t =>
      rw [hj] at hl
      simp only [Res.ok.injEq] at hl
      subst hl
      obtain ⟨h1, h2⟩ := List.getElem?_eq_some_iff.1 hj
      obtain ⟨h3, h4⟩ := List.getElem?_eq_some_iff.1 hs
      have : v.toNat = i := (List.Nodup.getElem_inj_iff D.values).1 (h2.trans h4.symm)
      rw [← this]
      simp

/-- Making and training the classifier of class number `i`. -/
theorem multi_train [IsStrictOrderedRing K] (E : e.Ok) (D : MultiData e.fo g n c nm vs lab) (hn : n ≠ 0) (conf : MultiConf K)
    (hauto : conf.params.auto = false) (hws : ∀ ws, conf.weights = some ws → (ws.map Prod.fst).Nodup) {fs : List Attr}
    (hfs : fs.Perm g.nonClassFloats) (hsp : ∀ sp : Attr → Spec, e.srt (g.nonClassFloats.map sp) = fs.map sp) {i : Nat} {s : String}
    (hs : vs[i]? = some s) :
    ∃ m : LModel K, TellsClass e.solve e.val g n lab fs ⟨conf.params.solver, conf.params.c, conf.params.eps⟩ (conf.weightsFor s) s m ∧
      m.bias < 0 ∧ m.nrFeature = fs.length + 1 ∧
      e.train conf s (some (Grid.newFiltered g
        ((⟨ovaAttrs e.fresh g.allAttributes c, c, BitVec.ofNat 64 i⟩ : OvaFilter).filter (e.ordF i)))) =
        Res.ok fun w => (svcPredict e.val e.enc e.srt e.pg (e.orderP w) m w).map Grid.dense := by
  obtain ⟨v, a, hv, Pv, Tv, hcl, ha, hain, hnf, hpt, hcell⟩ := marked_view e.val D.rows D.typed D.distinct D.classAttr D.classIn D.body
    D.noNames (fresh := e.fresh) (E.ordF i) i
  rw [hv]
  have hfl : a.isFloat = true := by rw [Attr.isFloat, ha]
  obtain ⟨m, nds, f1, f2, f3, f4, f5, f6⟩ := fit_spec e.solve e.toInt (val := e.val) (g := v) (cls := a) (fs := fs) hn
    (conf.svc s).param (conf.weightsFor s) (by rw [neg_lt_zero]; exact one_pos)
  have hp : (conf.svc s).param = ⟨conf.params.solver, conf.params.c, conf.params.eps⟩ := rfl
  have hlab : ((List.range n).map fun r => e.toInt (v.number e.val a r)) = (List.range n).map fun r => if lab r = s then (1 : Int) else 0 := by
    refine List.map_congr_left fun r hr => ?_
    have hr := List.mem_range.1 hr
    unfold Grid.number
    rw [hcell r hr]
    simp only [unpackFloatBits, C01_unpack_pack]
    by_cases h : lab r = s
    · rw [if_pos ((D.cellOf hr hs).2 h), if_pos h]
      exact E.one
    · rw [if_neg fun h' => h ((D.cellOf hr hs).1 h'), if_neg h]
      exact E.zero
  rw [hlab, hp] at f6
  refine ⟨m, ⟨nds, f2, ?_, f6⟩, f4, f5, ?_⟩
  · intro r hr
    obtain ⟨nd, n1, n2⟩ := f3 r hr
    rw [hpt fs (fun x hx => hfs.subset hx) r hr] at n2
    exact ⟨nd, n1, n2⟩
  · have hw : classWeights e.fo e.half e.srt (e.order0 v) (conf.svc s).params v = Res.ok (conf.weightsFor s) ∧ conf.weightsFor s ≠ [] := by
      unfold classWeights MultiConf.weightsFor
      simp only [MultiConf.svc, newSvcFromParams]
      cases hc : conf.weights with
      | none =>
        have : conf.params.copy.auto = false := hauto
        simp only [Option.map_none, this, Bool.false_eq_true, if_false]
        unfold weightsFixed
        rw [hcl]
        simp only [hfl, if_true]
        simp
      | some ws =>
        simp only [Option.map_some]
        rw [multiWeights_eq s ws (hws ws hc)]
        exact ⟨rfl, by simp [sideWeights]⟩
    unfold MultiEnv.train
    simp only
    unfold svcFit
    rw [hw.1, Res.bind_ok, problemVec_spec (fs := fs) Pv Tv (E.order1 v) (by rw [hnf]; exact hfs) (by rw [hnf]; exact hsp), Res.bind_ok,
      linLabelVec_spec E.sort Pv Tv (E.order2 v) hcl hain hfl, Res.bind_ok]
    simp only [if_neg hw.2]
    rw [f1, Res.map_ok]

/-- What the models say of the rows, as `Predict` asks them. -/
theorem first_of_confident {k : Nat} {claims : Nat → Prop} [DecidablePred claims] [IsStrictOrderedRing K] {j : Nat}
    (h : MostConfident k (fun i => some (if claims i then (1 : K) else 0)) j) : FirstClaim k claims j := by
  refine ⟨h.known, ?_⟩
  by_cases hj : claims j
  · refine Or.inl ⟨hj, fun i hi hc => ?_⟩
    have := h.first i 1 1 hi (by rw [if_pos hc]) (by rw [if_pos hj])
    exact lt_irrefl _ this
  · right
    have hnone : ∀ i, i < k → ¬ claims i := by
      intro i hi hc
      obtain ⟨b, b1, b2⟩ := h.greatest i 1 hi (by rw [if_pos hc]) one_pos
      rw [if_neg hj, Option.some.injEq] at b1
      rw [← b1] at b2
      exact absurd b2 (not_le.2 one_pos)
    refine ⟨h.default fun i x hi hx => ?_, hnone⟩
    rw [if_neg (hnone i hi), Option.some.injEq] at hx
    rw [← hx]
end

section
variable {K : Type} [Field K] [LinearOrder K] {e : MultiEnv K} {g : Grid} {n : Nat} {c : Attr} {nm : String} {vs : List String} {lab : Nat → String}

/-- The answer of the classifier of class number `i` for data to predict. -/
theorem multi_answer (E : e.Ok) (D : MultiData e.fo g n c nm vs lab) (hn : n ≠ 0) {fs : List Attr} {param : LParam K} {weights : List K}
    {s : String} {m : LModel K}
    (hm : TellsClass e.solve e.val g n lab fs param weights s m) (hb : m.bias < 0) (hf : m.nrFeature = g.nonClassFloats.length + 1)
    {what : Grid} {k : Nat} {cw : Attr} {nm' : String} {vs' : List String} (W : MultiInput g what k c cw nm' vs') {fw : List Attr}
    (hfw : fw.Perm what.nonClassFloats) (hsp : ∀ sp : Attr → Spec, e.srt (what.nonClassFloats.map sp) = fw.map sp) (i : Nat) :
    ∃ d a, svcPredict e.val e.enc e.srt e.pg (e.orderP (Grid.newFiltered what
        ((⟨ovaAttrs e.fresh g.allAttributes c, c, BitVec.ofNat 64 i⟩ : OvaFilter).filter (e.ordP i)))) m (Grid.newFiltered what
        ((⟨ovaAttrs e.fresh g.allAttributes c, c, BitVec.ofNat 64 i⟩ : OvaFilter).filter (e.ordP i))) = Res.ok d ∧
      PredVec d k a ∧ ∀ r, r < k → ∃ l : Int, (l = 0 ∨ l = 1) ∧ (l = 1 ↔ Chooses m (positivePart (what.point e.val fw r)) 1) ∧
        d.get ⟨some 0, 0, a⟩ r = Res.ok (packU64 (e.enc l)) := by
  obtain ⟨nds, _, _, T⟩ := hm
  have h0 : m.label ≠ [] := by
    intro h
    have := (T.occur (if lab 0 = s then 1 else 0)).2 (List.mem_map.2 ⟨0, List.mem_range.2 (Nat.pos_of_ne_zero hn), rfl⟩)
    rw [h] at this
    exact absurd this (by simp)
  choose l h1 h2 using fun r => libPredict_chooses m (what.point e.val fw r) T.classes h0 hb (by
    rw [hf, Grid.point, List.length_map, hfw.length_eq]
    exact W.few)
  have h01 : ∀ r, l r = 0 ∨ l r = 1 := by
    intro r
    have := (T.occur _).1 (h2 r).label
    obtain ⟨q, _, hq⟩ := List.mem_map.1 this
    rw [← hq]
    split
    · exact Or.inr rfl
    · exact Or.inl rfl
  have hiff : ∀ r, l r = 1 ↔ Chooses m (positivePart (what.point e.val fw r)) 1 := by
    intro r
    constructor
    · intro h
      rw [← h]
      exact h2 r
    · intro h
      exact (h2 r).unique h
  have key : ∃ d a, svcPredict e.val e.enc e.srt e.pg (e.orderP (Grid.newFiltered what
        ((⟨ovaAttrs e.fresh g.allAttributes c, c, BitVec.ofNat 64 i⟩ : OvaFilter).filter (e.ordP i)))) m (Grid.newFiltered what
        ((⟨ovaAttrs e.fresh g.allAttributes c, c, BitVec.ofNat 64 i⟩ : OvaFilter).filter (e.ordP i))) = Res.ok d ∧
      PredVec d k a ∧ ∀ r, r < k → d.get ⟨some 0, 0, a⟩ r = Res.ok (packU64 (e.enc (l r))) := by
    rcases W.source with ⟨w1, rfl⟩ | w
    · have hno : NoNameClash what cw := by
        intro a ha pr
        exact D.noNames a (w1 ▸ ha) pr
      rw [← w1]
      exact marked_predict E.sort W.rows W.typed W.distinct W.classAttr W.classIn W.body hno (E.ordP i) i (E.orderP _) hfw hsp (fun r _ => h1 r)
    · have hbin : cw.isBin = false := by rw [Attr.isBin, W.body]
      obtain ⟨d, d1, d2, d3⟩ := passed_predict (enc := e.enc) (pg := e.pg) E.sort W.rows W.typed
        (f := ⟨ovaAttrs e.fresh g.allAttributes c, c, BitVec.ofNat 64 i⟩) (E.ordP i)
        (by
          intro a ha
          simp only [ovaAttrs_eq e.fresh D.distinct D.classIn, List.map_map, List.mem_map, Function.comp, not_exists, not_and]
          rintro x hx rfl
          exact w _ ha hx)
        (by rw [Attr.isFloat, D.body]) (E.orderP _) W.classAttr W.classIn hbin hfw hsp (fun r _ => h1 r)
      exact ⟨d, cw, d1, d2, d3⟩
  obtain ⟨d, a, k1, k2, k3⟩ := key
  exact ⟨d, a, k1, k2, fun r hr => ⟨l r, h01 r, hiff r, k3 r hr⟩⟩

/-- Fitting succeeds, and what it gives. -/
theorem multi_fit [IsStrictOrderedRing K] (E : e.Ok) (D : MultiData e.fo g n c nm vs lab) (hn : n ≠ 0) (h2 : 2 ≤ vs.length) (conf : MultiConf K)
    (hauto : conf.params.auto = false) (hws : ∀ ws, conf.weights = some ws → (ws.map Prod.fst).Nodup) :
    ∃ fs : List Attr, fs.Perm g.nonClassFloats ∧ (∀ sp : Attr → Spec, e.srt (g.nonClassFloats.map sp) = fs.map sp) ∧ ∃ models : String → LModel K,
      (∀ s ∈ vs, TellsClass e.solve e.val g n lab fs ⟨conf.params.solver, conf.params.c, conf.params.eps⟩ (conf.weightsFor s) s (models s) ∧
        (models s).bias < 0 ∧ (models s).nrFeature = g.nonClassFloats.length + 1) ∧
      ∃ m, multiFit e conf g = Res.ok m ∧ ∀ (i : Nat) (s : String), vs[i]? = some s → m.classifiers[i]? = some fun w =>
        (svcPredict e.val e.enc e.srt e.pg (e.orderP w) (models s) w).map Grid.dense := by
  obtain ⟨fs, hfs, hsp⟩ := positionSort_attrs E.sort g.nonClassFloats
  have hex : ∀ s, s ∈ vs → ∃ m : LModel K,
      TellsClass e.solve e.val g n lab fs ⟨conf.params.solver, conf.params.c, conf.params.eps⟩ (conf.weightsFor s) s m ∧
      m.bias < 0 ∧ m.nrFeature = fs.length + 1 ∧
      ∀ i, vs[i]? = some s → e.train conf s (some (Grid.newFiltered g
        ((⟨ovaAttrs e.fresh g.allAttributes c, c, BitVec.ofNat 64 i⟩ : OvaFilter).filter (e.ordF i)))) =
        Res.ok fun w => (svcPredict e.val e.enc e.srt e.pg (e.orderP w) m w).map Grid.dense := by
    intro s hs
    obtain ⟨i, hi⟩ := List.getElem?_of_mem hs
    obtain ⟨m, m1, m2, m3, m4⟩ := multi_train E D hn conf hauto hws hfs hsp hi
    refine ⟨m, m1, m2, m3, fun i' hi' => ?_⟩
    obtain ⟨a1, a2⟩ := List.getElem?_eq_some_iff.1 hi
    obtain ⟨b1, b2⟩ := List.getElem?_eq_some_iff.1 hi'
    have : i = i' := (List.Nodup.getElem_inj_iff D.values).1 (a2.trans b2.symm)
    rw [← this]
    exact m4
  have hs0 : vs ≠ [] := by rintro rfl; simp at h2
  haveI : Nonempty (LModel K) := ⟨⟨0, 0, fun _ => 0, [], 0⟩⟩
  choose! models hmodels using hex
  refine ⟨fs, hfs, hsp, models, fun s hs => ⟨(hmodels s hs).1, (hmodels s hs).2.1, ?_⟩, ?_⟩
  · rw [(hmodels s hs).2.2.1, hfs.length_eq]
  obtain ⟨v, v1, v2⟩ := ovaHighest_eq vs D.values D.few.le
  have hv0 : v ≠ 0#64 := by
    rintro rfl
    simp at v2
    omega
  have hrow : g.size.2 ≠ 0 := by rw [D.rows.rows]; exact hn
  have hfit : ∃ m, multiFit e conf g = Res.ok m := by
    unfold multiFit OneVsAll.fit
    rw [D.classAttr]
    simp only [D.body, v1, Res.bind_ok, if_neg hv0]
    obtain ⟨cs, c1, _⟩ := mapRes_forall₂ (R := fun _ _ => True)
      (f := ovaTrain (e.train conf) vs g fun i =>
        (⟨ovaAttrs e.fresh g.allAttributes c, c, BitVec.ofNat 64 i⟩ : OvaFilter).filter (e.ordF i))
      (List.range (v.toNat + 1)) (by
        intro i hi
        have hi : i < vs.length := by have := List.mem_range.1 hi; omega
        simp only [ovaTrain, List.getElem?_eq_getElem hi, if_neg hrow]
        exact ⟨_, (hmodels vs[i] (List.getElem_mem hi)).2.2.2 i (List.getElem?_eq_getElem hi), trivial⟩)
    rw [c1]
    exact ⟨_, rfl⟩
  obtain ⟨m, hm⟩ := hfit
  refine ⟨m, hm, fun i s hs => ?_⟩
  obtain ⟨_, _, _, _, _, f5⟩ := ova_fit D.classAttr D.body D.values D.few.le hm
  obtain ⟨f, f6, f7⟩ := f5 i s hs
  rw [if_neg hrow, (hmodels s (List.mem_of_getElem? hs)).2.2.2 i hs, Res.ok.injEq] at f7
  rw [f6, f7]

/-- Fitting and predicting. -/
theorem multi_predict [IsStrictOrderedRing K] (E : e.Ok) (D : MultiData e.fo g n c nm vs lab) (hn : n ≠ 0) (conf : MultiConf K)
    {fs : List Attr} {models : String → LModel K}
    (hmodels : ∀ s ∈ vs, TellsClass e.solve e.val g n lab fs ⟨conf.params.solver, conf.params.c, conf.params.eps⟩ (conf.weightsFor s) s (models s) ∧
        (models s).bias < 0 ∧ (models s).nrFeature = g.nonClassFloats.length + 1) {m : OneVsAll} (hm : multiFit e conf g = Res.ok m)
    (hcs : ∀ (i : Nat) (s : String), vs[i]? = some s → m.classifiers[i]? = some fun w =>
        (svcPredict e.val e.enc e.srt e.pg (e.orderP w) (models s) w).map Grid.dense)
    {what : Grid} {k : Nat} {cw : Attr} {nm' : String} {vs' : List String} (W : MultiInput g what k c cw nm' vs') {fw : List Attr}
    (hfw : fw.Perm what.nonClassFloats) (hsp : ∀ sp : Attr → Spec, e.srt (what.nonClassFloats.map sp) = fw.map sp) :
    ∃ d, multiPredict e m what = Res.ok d ∧ d.maxRow = k ∧ d.allClassAttributes = [cw] ∧
      ∀ r, r < k → ∃ j, FirstClaim vs.length (fun i => ∃ s, vs[i]? = some s ∧ Chooses (models s) (positivePart (what.point e.val fw r)) 1) j ∧
        getClass e.fo (.dense d) r = (match vs'[j]? with | some s => Res.ok s | none => Res.panic) := by
  classical
  obtain ⟨_, f1, f2, f3, f4, _⟩ := ova_fit D.classAttr D.body D.values D.few.le hm
  have hO : m.Outputs e.num e.ordP what k fun i r => some (if ∃ s, vs[i]? = some s ∧ Chooses (models s) (positivePart (what.point e.val fw r)) 1
      then (1 : K) else 0) := by
    intro i f cl hf hcl
    have hi : i < vs.length := by
      have := (List.getElem?_eq_some_iff.1 hcl).1
      rw [f2] at this
      exact this
    rw [f4 i hi, Option.some.injEq] at hf
    subst hf
    rw [hcs i _ (List.getElem?_eq_getElem hi), Option.some.injEq] at hcl
    subst hcl
    obtain ⟨t1, t2, t3⟩ := hmodels vs[i] (List.getElem_mem hi)
    obtain ⟨d, a, d1, d2, d3⟩ := multi_answer E D hn t1 t2 t3 W hfw hsp i
    choose! l l1 l2 l3 using d3
    obtain ⟨s1, s2, s3⟩ := d2.shown l3
    refine ⟨.dense d, a, by simp only [d1, Res.map_ok], s1, d2.classes, s2, fun r hr => ⟨_, s3 r hr, ?_⟩⟩
    have hiff : (∃ s, vs[i]? = some s ∧ Chooses (models s) (positivePart (what.point e.val fw r)) 1) ↔ l r = 1 := by
      rw [l2 r hr]
      constructor
      · rintro ⟨s, hs, h⟩
        rw [List.getElem?_eq_getElem hi, Option.some.injEq] at hs
        rw [hs]
        exact h
      · intro h
        exact ⟨_, List.getElem?_eq_getElem hi, h⟩
    simp only [hiff]
    rcases l1 r hr with h | h
    · rw [h, if_neg (by decide)]
      exact E.readsZero
    · rw [h, if_pos rfl]
      exact E.readsOne
  obtain ⟨pc, body⟩ := cw
  have hb := W.body
  simp only at hb
  subst hb
  have hperm : ∀ l, (e.srt l).Perm l := by
    obtain ⟨σ, h1, h2⟩ := E.sort
    intro l
    rw [h2]
    refine ((h1 l.length).filterMap _).trans ?_
    rw [filterMap_range_getElem?]
  obtain ⟨d, d1, d2, d3⟩ := ova_predict m f1 f2 f3 hO W.rows.rows W.classAttr hperm e.pg
  refine ⟨d, d1, d2.rows, d2.classes, fun r hr => ?_⟩
  obtain ⟨j, j1, j2⟩ := d3 r hr
  have hj := j1.known
  have hfew := D.few
  refine ⟨j, first_of_confident j1, ?_⟩
  rw [d2.getClass, j2]
  have hmod : j % 2 ^ 64 = j := Nat.mod_eq_of_lt (by omega)
  simp only [Res.bind_ok, Attr.getString, catGetString, C01_unpack_pack, BitVec.toNat_ofNat, hmod]
  cases vs'[j]? <;> rfl
end

end Golearn
