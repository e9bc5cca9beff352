import Verif.Proofs.Layered
import Verif.Proofs.FloatGrid
import Verif.Proofs.ChiTable
import Mathlib.Order.Interval.Finset.Nat

/-! # Lemmas about networks in layers: training -/

namespace Golearn

theorem enumerate_get (m : GoMap Attr Nat) (k : Nat) (as : List Attr) (hnd : as.Nodup) (a : Attr) :
    (enumerateAttrs m k as).get? a = if a ∈ as then some (k + as.idxOf a) else m.get? a := by
  induction as generalizing m k with
  | nil => simp [enumerateAttrs]
  | cons b bs ih =>
    rw [List.nodup_cons] at hnd
    rw [enumerateAttrs, ih _ _ hnd.2, GoMap.get?_set]
    by_cases hb : b = a
    · subst hb
      rw [if_neg hnd.1]
      simp
    · rw [if_neg hb]
      by_cases ha : a ∈ bs
      · rw [if_pos ha, if_pos (by simp [ha]), List.idxOf_cons_ne _ hb]
        congr 1
        omega
      · rw [if_neg ha, if_neg (by simp [ha, Ne.symm hb])]

theorem GoMap.set_new {κ ν : Type} [DecidableEq κ] (m : GoMap κ ν) (k : κ) (v : ν) (h : k ∉ m.map Prod.fst) :
    m.set k v = m ++ [(k, v)] := by
  induction m with
  | nil => rfl
  | cons p ps ih =>
    obtain ⟨k', v'⟩ := p
    simp only [List.map_cons, List.mem_cons, not_or] at h
    unfold GoMap.set
    rw [if_neg (fun e => h.1 e.symm), ih h.2]
    rfl

theorem enumerate_list (m : GoMap Attr Nat) (k : Nat) (as : List Attr) (hnd : as.Nodup) (h : ∀ a ∈ as, a ∉ m.map Prod.fst) :
    enumerateAttrs m k as = m ++ as.zip (List.range' k as.length) := by
  induction as generalizing m k with
  | nil => simp [enumerateAttrs]
  | cons b bs ih =>
    rw [List.nodup_cons] at hnd
    rw [enumerateAttrs, GoMap.set_new m b k (h b (by simp)), ih _ _ hnd.2 ?_]
    · simp [List.range'_succ]
    · intro a ha
      simp only [List.map_append, List.map_cons, List.map_nil, List.mem_append, List.mem_singleton, not_or]
      exact ⟨h a (by simp [ha]), fun e => hnd.1 (e ▸ ha)⟩

section
variable {K : Type} [Field K] [LinearOrder K]

/-- Put the numbers of attributes at their places. -/
def putAll (f : Attr → Option Nat) (num : Attr → K) (as : List Attr) (x : Nat → K) : Nat → K :=
  as.foldl (fun x a => match f a with | some i => setItem x i (num a) | none => x) x

theorem putAll_at {f : Attr → Option Nat} {num : Attr → K} {as : List Attr} {b : Attr} {i : Nat} (hb : b ∈ as) (hi : f b = some i)
    (hu : ∀ c ∈ as, f c = some i → c = b) (x : Nat → K) : putAll f num as x i = num b := by
  unfold putAll
  induction as using List.reverseRecOn with
  | nil => simp at hb
  | append_singleton as c ih =>
    rw [List.foldl_append, List.foldl_cons, List.foldl_nil]
    by_cases hc : f c = some i
    · have := hu c (by simp) hc
      subst this
      rw [hc]
      simp [setItem]
    · have hb' : b ∈ as := by
        rcases List.mem_append.1 hb with h | h
        · exact h
        · rw [List.mem_singleton] at h
          rw [h] at hi
          exact absurd hi hc
      have := ih hb' fun d hd => hu d (by simp [hd])
      cases hfc : f c with
      | none => exact this
      | some j =>
        simp only [setItem]
        rw [if_neg]
        · exact this
        · rintro rfl; exact hc hfc

theorem putAll_not {f : Attr → Option Nat} {num : Attr → K} {as : List Attr} {i : Nat} (hu : ∀ c ∈ as, f c ≠ some i) (x : Nat → K) :
    putAll f num as x i = x i := by
  unfold putAll
  induction as using List.reverseRecOn with
  | nil => rfl
  | append_singleton as c ih =>
    rw [List.foldl_append, List.foldl_cons, List.foldl_nil]
    have := ih fun d hd => hu d (by simp [hd])
    cases hfc : f c with
    | none => exact this
    | some j =>
      simp only [setItem]
      rw [if_neg]
      · exact this
      · rintro rfl; exact hu c (by simp) hfc

/-- Numbers put at the places given by a list are those placed. -/
theorem putAll_placed {num : Attr → Nat → K} {r : Nat} {as l : List Attr} (hl : l.Nodup) (hsub : ∀ a ∈ l, a ∈ as) (first : Nat) :
    putAll (fun a => if a ∈ l then some (first + l.idxOf a) else none) (fun a => num a r) as (fun _ => 0) =
      placed num first l r := by
  funext i
  unfold placed
  by_cases hi : first ≤ i ∧ i - first < l.length
  · rw [if_pos hi.1, List.getElem?_eq_getElem hi.2]
    simp only
    have hm := List.getElem_mem hi.2
    apply putAll_at (hsub _ hm)
    · rw [if_pos hm, hl.idxOf_getElem]
      congr 1
      omega
    · intro c _ hc
      split at hc
      · next hcl =>
        rw [Option.some.injEq] at hc
        have : l.idxOf c = i - first := by omega
        have h2 := List.getElem_idxOf (List.idxOf_lt_length_of_mem hcl)
        rw [← h2]
        congr 1
      · cases hc
  · rw [putAll_not]
    · split
      · next h1 =>
        rw [List.getElem?_eq_none (by omega)]
      · rfl
    · intro c _ hc
      split at hc
      · next hcl =>
        rw [Option.some.injEq] at hc
        have := List.idxOf_lt_length_of_mem hcl
        apply hi
        omega
      · cases hc

theorem buildVecs_spec {val : U64 → K} {size : Nat} {tr cl : GoMap Attr Nat} {sp : Attr → Spec} {cell : Attr → Bytes} {num : Attr → K}
    (fs : List Attr) (hsp : ∀ a ∈ fs, (sp a).attr = a) (hnum : ∀ a ∈ fs, ∃ u, unpackFloatBits (cell a) = Res.ok u ∧ val u = num a)
    (htr : ∀ a ∈ fs, ∀ i, tr.get? a = some i → i < size)
    (hcl : ∀ a ∈ fs, tr.get? a = none → ∃ i, cl.get? a = some i ∧ i < size) (x e : Nat → K) :
    buildVecs val size tr cl (fs.map fun a => (sp a, cell a)) x e = Res.ok
      (putAll (fun a => tr.get? a) num fs x,
       putAll (fun a => match tr.get? a with | some _ => none | none => cl.get? a) num fs e) := by
  induction fs generalizing x e with
  | nil => rfl
  | cons a as ih =>
    obtain ⟨u, hu1, hu2⟩ := hnum a (by simp)
    have ih' := ih (fun a h => hsp a (by simp [h])) (fun a h => hnum a (by simp [h])) (fun a h => htr a (by simp [h]))
      fun a h => hcl a (by simp [h])
    simp only [List.map_cons, buildVecs, hu1, Res.bind_ok, hsp a (by simp)]
    cases ht : tr.get? a with
    | some i =>
      simp only [vecSet]
      rw [if_pos (htr a (by simp) i ht), Res.bind_ok, ih', hu2]
      simp only [putAll, List.foldl_cons, ht]
    | none =>
      obtain ⟨i, hi1, hi2⟩ := hcl a (by simp) ht
      simp only [hi1, vecSet]
      rw [if_pos hi2, Res.bind_ok, ih', hu2]
      simp only [putAll, List.foldl_cons, ht, hi1]

theorem subOutputs_spec {size : Nat} {out : Nat → K} (cls : List Attr) (first : Nat) (h : first + cls.length ≤ size) (e : Nat → K) :
    subOutputs size out (cls.zip (List.range' first cls.length)) e =
      Res.ok fun i => if first ≤ i ∧ i < first + cls.length then e i - out i else e i := by
  induction cls generalizing first e with
  | nil =>
    simp only [List.zip_nil_left, subOutputs, List.length_nil]
    congr 1
    funext i
    rw [if_neg (by omega)]
  | cons c cs ih =>
    rw [List.length_cons] at h
    simp only [List.length_cons, List.range'_succ, List.zip_cons_cons, subOutputs, vecSet]
    rw [if_pos (by omega), Res.bind_ok, ih (first + 1) (by omega)]
    congr 1
    funext i
    simp only [setItem]
    by_cases h1 : i = first
    · subst h1
      rw [if_neg (by omega), if_pos rfl, if_pos (by omega)]
    · rw [if_neg h1]
      by_cases h2 : first + 1 ≤ i ∧ i < first + 1 + cs.length
      · rw [if_pos h2, if_pos (by omega)]
      · rw [if_neg h2, if_neg (by omega)]

variable [IsStrictOrderedRing K]

theorem lacking_placed (num : Attr → Nat → K) (first : Nat) (cls : List Attr) (r : Nat) (F : Nat → K) :
    (fun i => if first ≤ i ∧ i < first + cls.length then placed num first cls r i - F i else placed num first cls r i) =
      lacking (Finset.Ico first (first + cls.length)) (placed num first cls r) F := by
  funext i
  unfold lacking
  by_cases h : first ≤ i ∧ i < first + cls.length
  · rw [if_pos h, if_pos (Finset.mem_Ico.2 h)]
  · rw [if_neg h, if_neg (fun hm => h (Finset.mem_Ico.1 hm))]
    unfold placed
    split
    · rw [List.getElem?_eq_none (by omega)]
    · rfl

theorem sum_lacking (O : Finset Nat) (size : Nat) (h : ∀ o ∈ O, o < size) (y F : Nat → K) :
    ∑ i ∈ Finset.range size, lacking O y F i = ∑ o ∈ O, (y o - F o) := by
  unfold lacking
  rw [← Finset.sum_filter]
  congr 1
  ext o
  simp only [Finset.mem_filter, Finset.mem_range]
  exact ⟨fun hh => hh.2, fun hh => ⟨h o hh, hh⟩⟩

/-- What training needs to know about the attributes of the converted instances. -/
structure FitAttrs (insts : Grid) (n : Nat) (ins cls : List Attr) : Prop where
  presents : insts.Presents n
  typed : insts.typed n
  floats : ∀ a ∈ insts.allAttributes, a.isFloat = true
  nodup : insts.allAttributes.Nodup
  insNodup : ins.Nodup
  clsNodup : cls.Nodup
  mem : ∀ a, a ∈ insts.allAttributes ↔ a ∈ ins ∨ a ∈ cls
  disjoint : ∀ a ∈ ins, a ∉ cls
  nonempty : ins ≠ []

theorem idxOf_none_get {l : List Attr} {a : Attr} (first : Nat) (h : a ∉ l) :
    (if a ∈ l then some (first + l.idxOf a) else none : Option Nat) = none := by rw [if_neg h]

/-- One row. -/
theorem fitCallback_spec {val : U64 → K} {rate : K} {layers : List Nat} {insts : Grid} {N : Nat} {ins cls : List Attr}
    (A : FitAttrs insts N ins cls) {exp : K → K} {n : Network K}
    (H : Shape exp (ins.length :: layers) (ins.length + layers.sum + cls.length) ins.length (layers.length + 1) n)
    {sp : Attr → Spec} {fs : List Attr} (hfs : fs.Perm insts.allAttributes) (hsp : ∀ a ∈ fs, (sp a).attr = a) (t : K) (mr : Nat)
    {r : Nat} (hr : r < N) :
    ∃ F δ, n.FeedForward (placed (insts.number val) 0 ins r) F ∧
      n.BackPropagates F (lacking (Finset.Ico (ins.length + layers.sum) (ins.length + layers.sum + cls.length))
        (placed (insts.number val) (ins.length + layers.sum) cls r) F) δ ∧
      fitCallback val rate (2 + layers.length) (enumerateAttrs [] 0 ins) (enumerateAttrs [] (ins.length + layers.sum) cls)
        (fs.map sp) (n, t, mr) (fs.map fun a => insts.cell a r) r =
      Res.ok ((((n.updateWeights F δ rate).updateBias δ rate),
        t + |∑ o ∈ Finset.Ico (ins.length + layers.sum) (ins.length + layers.sum + cls.length),
          (placed (insts.number val) (ins.length + layers.sum) cls r o - F o)|, r), Ctl.cont) := by
  set first := ins.length + layers.sum with hfirst
  set F := n.activate (2 + layers.length - 1) (placed (insts.number val) 0 ins r) with hF
  set err := lacking (Finset.Ico first (first + cls.length)) (placed (insts.number val) first cls r) F with herr
  refine ⟨F, n.error F err (2 + layers.length), H.inv.1.feedForward _ (by omega), H.inv.1.backPropagates _ _ (by omega), ?_⟩
  have hin : ∀ a, (enumerateAttrs [] 0 ins).get? a = if a ∈ ins then some (0 + ins.idxOf a) else none := by
    intro a
    rw [enumerate_get _ _ _ A.insNodup]
    rfl
  have hcl : ∀ a, (enumerateAttrs [] first cls).get? a = if a ∈ cls then some (first + cls.idxOf a) else none := by
    intro a
    rw [enumerate_get _ _ _ A.clsNodup]
    rfl
  have hmem : ∀ a ∈ fs, a ∈ insts.allAttributes := fun a h => hfs.subset h
  have hb := buildVecs_spec (val := val) (size := n.size) (tr := enumerateAttrs [] 0 ins) (cl := enumerateAttrs [] first cls) (sp := sp)
    (cell := fun a => insts.cell a r) (num := fun a => insts.number val a r) fs hsp
    (by
      intro a ha
      obtain ⟨u, hu⟩ := unpack_typed A.typed (hmem a ha) (A.floats a (hmem a ha)) hr
      refine ⟨u, hu, ?_⟩
      unfold Grid.number
      rw [hu])
    (by
      intro a _ i hi
      rw [hin] at hi
      split at hi
      · next h =>
        rw [Option.some.injEq] at hi
        have := List.idxOf_lt_length_of_mem h
        rw [H.size]
        omega
      · cases hi)
    (by
      intro a ha hn
      rw [hin] at hn
      split at hn
      · cases hn
      · next h =>
        have hc : a ∈ cls := ((A.mem a).1 (hmem a ha)).resolve_left h
        refine ⟨first + cls.idxOf a, by rw [hcl, if_pos hc], ?_⟩
        have := List.idxOf_lt_length_of_mem hc
        rw [H.size]
        omega) (fun _ => 0) fun _ => 0
  have hx : putAll (fun a => (enumerateAttrs [] 0 ins).get? a) (fun a => insts.number val a r) fs (fun _ => 0) =
      placed (insts.number val) 0 ins r := by
    rw [← putAll_placed A.insNodup (as := fs) (fun a ha => hfs.symm.subset ((A.mem a).2 (Or.inl ha)))]
    congr 1
    funext a
    exact hin a
  have he : putAll (fun a => match (enumerateAttrs [] 0 ins).get? a with | some _ => none | none => (enumerateAttrs [] first cls).get? a)
      (fun a => insts.number val a r) fs (fun _ => 0) = placed (insts.number val) first cls r := by
    rw [← putAll_placed A.clsNodup (as := fs) (fun a ha => hfs.symm.subset ((A.mem a).2 (Or.inr ha)))]
    congr 1
    funext a
    rw [hin, hcl]
    by_cases h : a ∈ ins
    · rw [if_pos h, if_neg (A.disjoint a h)]
    · rw [if_neg h]
  rw [hx, he] at hb
  have hz : (fs.map sp).zip (fs.map fun a => insts.cell a r) = fs.map fun a => (sp a, insts.cell a r) := by
    rw [List.zip_map']
  unfold fitCallback
  simp only
  rw [hz, hb, Res.bind_ok]
  simp only
  rw [← hF, enumerate_list [] first cls A.clsNodup (by simp), List.nil_append,
    subOutputs_spec cls first (by rw [H.size]), Res.bind_ok, lacking_placed, ← herr]
  rw [herr, sum_lacking _ _ (by intro o ho; rw [Finset.mem_Ico] at ho; rw [H.size]; omega)]

/-- One iteration over all rows. -/
theorem epoch_spec {val : U64 → K} {rate : K} {layers : List Nat} {insts : Grid} {N : Nat} {ins cls : List Attr}
    (A : FitAttrs insts N ins cls) {exp : K → K} {sp : Attr → Spec} {fs : List Attr} (hfs : fs.Perm insts.allAttributes)
    (hsp : ∀ a ∈ fs, (sp a).attr = a) {vals : Nat → Res (List Bytes)}
    (hv : ∀ r, r < N → vals r = Res.ok (fs.map fun a => insts.cell a r)) (order : List Nat) (ho : ∀ r ∈ order, r < N)
    (n : Network K) (H : Shape exp (ins.length :: layers) (ins.length + layers.sum + cls.length) ins.length (layers.length + 1) n)
    (t : K) (mr : Nat) :
    ∃ n' e, mapOver vals (fitCallback val rate (2 + layers.length) (enumerateAttrs [] 0 ins)
        (enumerateAttrs [] (ins.length + layers.sum) cls) (fs.map sp)) (n, t, mr) order =
        Res.ok ((n', t + e, (order.getLast?).getD mr), false) ∧
      Epoch rate (Finset.Ico (ins.length + layers.sum) (ins.length + layers.sum + cls.length)) (placed (insts.number val) 0 ins)
        (placed (insts.number val) (ins.length + layers.sum) cls) order n n' e ∧
      Shape exp (ins.length :: layers) (ins.length + layers.sum + cls.length) ins.length (layers.length + 1) n' := by
  induction order generalizing n t mr with
  | nil => exact ⟨n, 0, by simp [mapOver], Epoch.done n, H⟩
  | cons r rs ih =>
    obtain ⟨F, δ, h1, h2, h3⟩ := fitCallback_spec (val := val) (rate := rate) A H hfs hsp t mr (ho r (by simp))
    obtain ⟨n', e, i1, i2, i3⟩ := ih (fun q hq => ho q (by simp [hq])) _ (H.train F δ δ rate) _ r
    refine ⟨n', _, ?_, Epoch.row r rs n n' F δ e h1 h2 i2, i3⟩
    unfold mapOver
    rw [hv r (ho r (by simp)), Res.bind_ok, h3, Res.bind_ok]
    simp only
    rw [i1]
    congr 3
    rw [add_assoc]
    congr 1
    rw [List.getLast?_cons]
    rfl

/-- The loop of `Fit`. -/
theorem fitLoop_spec {val : U64 → K} {m : MLNet K} {insts : Grid} {N : Nat} {ins cls : List Attr}
    (A : FitAttrs insts N ins cls) {exp : K → K} {sp : Attr → Spec} {fs : List Attr} (hfs : fs.Perm insts.allAttributes)
    (hsp : ∀ a ∈ fs, (sp a).attr = a) (hprep : insts.mapPrep (fs.map sp) = Res.ok ())
    (hv : ∀ r, r < N → insts.rowVals (fs.map sp) r = Res.ok (fs.map fun a => insts.cell a r)) (order : Nat → List Nat)
    (ho : ∀ i, ∀ r ∈ order i, r < N) (k it : Nat) (n : Network K)
    (H : Shape exp (ins.length :: m.layers) (ins.length + m.layers.sum + cls.length) ins.length (m.layers.length + 1) n) :
    ∃ n', fitLoop val m (enumerateAttrs [] 0 ins) (enumerateAttrs [] (ins.length + m.layers.sum) cls) insts (fs.map sp) order k it n =
        Res.ok n' ∧
      Training m.learningRate m.convergence (Finset.Ico (ins.length + m.layers.sum) (ins.length + m.layers.sum + cls.length))
        (placed (insts.number val) 0 ins) (placed (insts.number val) (ins.length + m.layers.sum) cls) order it k n n' ∧
      Shape exp (ins.length :: m.layers) (ins.length + m.layers.sum + cls.length) ins.length (m.layers.length + 1) n' := by
  induction k generalizing it n with
  | zero => exact ⟨n, rfl, Training.spent it n, H⟩
  | succ k ih =>
    obtain ⟨n1, e, h1, h2, h3⟩ := epoch_spec (val := val) (rate := m.learningRate) A hfs hsp hv (order it) (ho it) n H 0 0
    unfold fitLoop Grid.mapOverRows
    rw [hprep, Res.bind_ok, h1]
    simp only [keepState, Res.bind_ok, zero_add]
    by_cases hc : converged m.convergence e (((order it).getLast?).getD 0) = true
    · rw [if_pos hc]
      refine ⟨n1, rfl, ?_, h3⟩
      unfold converged at hc
      simp only [Bool.and_eq_true, decide_eq_true_eq] at hc
      cases hl : (order it).getLast? with
      | none =>
        rw [hl] at hc
        exact absurd rfl hc.1
      | some last =>
        rw [hl] at hc
        exact Training.stop it k last n n1 e h2 hl hc.1 hc.2
    · rw [if_neg hc]
      obtain ⟨n', i1, i2, i3⟩ := ih (it + 1) n1 h3
      refine ⟨n', i1, Training.next it k n n1 n' e h2 ?_ i2, i3⟩
      intro last hl hne hlt
      apply hc
      unfold converged
      rw [hl]
      simp [hne, hlt]

/-- The attributes of the inputs and outputs of a network trained on `g`. -/
theorem fitAttrs {g : Grid} {n : Nat} {fresh : Nat → Nat} (FG : FloatGrid g n fresh) {ins cls : List Attr}
    (hi : ins.Perm (convertToFloatInsts fresh g).normalAttrs) (hc : cls.Perm (convertToFloatInsts fresh g).allClassAttributes)
    (hne : ∃ a ∈ g.allAttributes, a ∉ g.allClassAttributes) :
    FitAttrs (convertToFloatInsts fresh g) n ins cls := by
  obtain ⟨_, k1, _, k2⟩ := C27_references (convertToFloatInsts fresh g).allAttributes (convertToFloatInsts fresh g).allClassAttributes
    _ ins (List.Perm.refl _) hi
  have hsub : ∀ c ∈ (convertToFloatInsts fresh g).allClassAttributes, c ∈ (convertToFloatInsts fresh g).allAttributes := by
    intro c hc
    obtain ⟨p, hp, _, rfl⟩ := (FG.cls c).1 hc
    exact (FG.mem _).2 ⟨p, hp, rfl⟩
  refine ⟨FG.presents, FG.typed, FG.floats, nodup_of_distinct FG.distinct, k1, hc.nodup_iff.2 FG.clsNodup, ?_, ?_, ?_⟩
  · intro a
    rw [k2 a, hc.mem_iff]
    constructor
    · intro h
      by_cases h' : a ∈ (convertToFloatInsts fresh g).allClassAttributes
      · exact Or.inr h'
      · exact Or.inl ⟨h, h'⟩
    · rintro (h | h)
      · exact h.1
      · exact hsub a h
  · intro a ha hac
    exact ((k2 a).1 ha).2 (hc.subset hac)
  · obtain ⟨a, ha, hac⟩ := hne
    obtain ⟨x, hx⟩ := List.exists_mem_of_ne_nil _ (FG.some a ha)
    have hp := of_mem_outputs hx
    have : x ∈ ins := by
      rw [k2]
      refine ⟨(FG.mem x).2 ⟨_, hp, rfl⟩, ?_⟩
      intro hcl
      obtain ⟨q, hq, hq1, hq2⟩ := (FG.cls x).1 hcl
      have := FG.inj _ hp q hq hq2
      rw [← this] at hq1
      exact hac hq1
    intro e
    rw [e] at this
    simp at this

/-- What `Fit` does. -/
theorem fit_layers {exp : K → K} {val : U64 → K} {srt : List Spec → List Spec} (hsrt : PositionSort srt) {run : NetRun K}
    {m : MLNet K} {g : Grid} {n : Nat} (FG : FloatGrid g n run.fresh) (ho : ∀ i, g.RowOrder (run.order i))
    {ins cls : List Attr} (hins : run.inputs (convertToFloatInsts run.fresh g).normalAttrs = ins)
    (hcls : run.classes (convertToFloatInsts run.fresh g).allClassAttributes = cls)
    (hi : ins.Perm (convertToFloatInsts run.fresh g).normalAttrs)
    (hc : cls.Perm (convertToFloatInsts run.fresh g).allClassAttributes) (hne : ∃ a ∈ g.allAttributes, a ∉ g.allClassAttributes) :
    ∃ n1 n2, Shape exp (ins.length :: m.layers) (ins.length + m.layers.sum + cls.length) ins.length (m.layers.length + 1) n1 ∧
      (∃ n0, newNetwork (ins.length + cls.length + m.layers.sum) ins.length (sigmoidFn exp) = Res.ok n0 ∧
        setSlots run.draw 0 (netSlots ins.length cls.length m.layers) n0 = Res.ok n1) ∧
      Training m.learningRate m.convergence (Finset.Ico (ins.length + m.layers.sum) (ins.length + m.layers.sum + cls.length))
        (placed ((convertToFloatInsts run.fresh g).number val) 0 ins)
        (placed ((convertToFloatInsts run.fresh g).number val) (ins.length + m.layers.sum) cls) run.order 0 m.maxIterations n1 n2 ∧
      Shape exp (ins.length :: m.layers) (ins.length + m.layers.sum + cls.length) ins.length (m.layers.length + 1) n2 ∧
      m.fit exp val srt run g = Res.ok { m with
        network := some n2
        attrs := enumerateAttrs (enumerateAttrs m.attrs 0 ins) (ins.length + m.layers.sum) cls
        classAttrOffset := ins.length
        classAttrCount := m.classAttrCount + cls.length } := by
  have A := fitAttrs FG hi hc hne
  have hlen : ins.length - 1 + 1 = ins.length := by
    have := List.length_pos_iff.2 A.nonempty
    omega
  obtain ⟨n0, n1, s1, s2, s3⟩ := start_shape exp run.draw ins.length cls.length m.layers
  set insts := convertToFloatInsts run.fresh g with hinsts
  obtain ⟨fs, f1, f2⟩ := positionSort_attrs hsrt insts.allAttributes
  obtain ⟨sp, x1, x2⟩ := features_spec A.presents A.typed (num := insts.allAttributes)
    (fun a ha => ⟨a, ha, C28_equals_refl a, rfl⟩) A.floats
  obtain ⟨x3, x4⟩ := x2 fs (fun a ha => f1.subset ha)
  obtain ⟨specs, y1, y2, _⟩ := resolveUnsorted_attrs A.presents (as := insts.allAttributes) (fun a h => h)
  rw [x1] at y1
  simp only [Res.ok.injEq] at y1
  rw [← y1, List.map_map] at y2
  have hsp : ∀ a ∈ insts.allAttributes, (sp a).attr = a := by
    intro a ha
    have := List.map_inj_left.1 (y2.trans (List.map_id _).symm) a ha
    exact this
  have hord : ∀ i, ∀ r ∈ run.order i, r < n := by
    intro i r hr
    have h1 : insts.RowOrder (run.order i) := by
      obtain ⟨cl, e⟩ := newFiltered_shape g (Conv.float run.fresh g.allAttributes)
      rw [hinsts]
      unfold convertToFloatInsts
      rw [e]
      exact ho i
    exact List.mem_range.1 ((A.presents.order _ h1).subset hr)
  set m1 : MLNet K := { m with
        attrs := enumerateAttrs (enumerateAttrs m.attrs 0 ins) (ins.length + m.layers.sum) cls
        classAttrOffset := ins.length
        classAttrCount := m.classAttrCount + cls.length } with hm1
  obtain ⟨n2, l1, l2, l3⟩ := fitLoop_spec (val := val) (m := m1) A f1 (fun a h => hsp a (f1.subset h)) x3
    (fun r hr => (x4 r hr).1) run.order hord m.maxIterations 0 n1 s3
  refine ⟨n1, n2, s3, ⟨n0, s1, s2⟩, l2, l3, ?_⟩
  unfold MLNet.fit
  simp only
  rw [← hinsts, hins, hcls, hlen, s1, Res.bind_ok, s2, Res.bind_ok]
  unfold Grid.resolve
  rw [x1, Res.map_ok, Res.bind_ok, f2]
  rw [l1]
  rfl

end

end Golearn
