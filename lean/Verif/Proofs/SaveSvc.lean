import Verif.Spec.SaveSvc
import Verif.Proofs.SaveNB
import Verif.Proofs.StructCopy
import Verif.Proofs.OneVsAll
import Verif.Proofs.Liblinear
import Verif.Proofs.Tree

/-! # Saved linear support vector machines and one-vs-all models -/

namespace Golearn

section
variable {K : Type} [Field K] [LinearOrder K]

/-! ## The text of a model -/

omit [Field K] [LinearOrder K] in
theorem scanInts_map (l : List Int) (ts : List (LTok K)) : scanInts l.length (l.map LTok.int ++ ts) = Res.ok (l, ts) := by
  induction l with
  | nil => rfl
  | cons i l ih => simp [scanInts, ih]

omit [LinearOrder K] [Field K] in
theorem scanNums_map (rnd : K → K) (l : List K) : scanNums rnd l.length (l.map LTok.num) = Res.ok (l.map rnd) := by
  induction l with
  | nil => rfl
  | cons i l ih => simp [scanNums, ih]

theorem solver_find {solver : Nat} {s : String} (h : solverNames[solver]? = some s) (hs : s ≠ "") :
    (solverNames.findIdx fun x => decide (x = s)) = solver ∧ solver < solverNames.length := by
  have hl : solver < solverNames.length := (List.getElem?_eq_some_iff.1 h).1
  refine ⟨?_, hl⟩
  have hall : ∀ i : Fin 14, solverNames[i.val]'i.isLt ≠ "" → (solverNames.findIdx fun x => decide (x = solverNames[i.val]'i.isLt)) = i.val := by
    decide
  have := (List.getElem?_eq_some_iff.1 h).2
  rw [← this] at hs ⊢
  exact hall ⟨solver, hl⟩ hs

/-- The model that is read. -/
def loadedModel (rnd : K → K) (m : LModel K) : LModel K :=
  { nrFeature := m.nrFeature, nrClass := m.nrClass, label := m.label, bias := m.bias,
    w := fun k => if k < weightCount m.nrFeature m.nrClass m.bias then rnd (m.w k) else 0 }

/-- What is read is what was written, up to the rounding of the numbers. -/
theorem text_roundtrip (rnd : K → K) (solver : Nat) (m : LModel K) {s : String} (hs : solverNames[solver]? = some s) (hne : s ≠ "")
    (hl : m.label.length = m.nrClass) (hb : rnd m.bias = m.bias) :
    ∃ ts, saveModelText solver m = Res.ok ts ∧ loadModelText rnd ts = Res.ok (solver, loadedModel rnd m) := by
  unfold loadedModel
  obtain ⟨f1, f2⟩ := solver_find hs hne
  obtain ⟨W, hW⟩ : ∃ W, W = weightCount m.nrFeature m.nrClass m.bias := ⟨_, rfl⟩
  refine ⟨_, by rw [saveModelText, hs]; simp only [hl, Nat.lt_irrefl, if_false, if_neg hne]; rfl, ?_⟩
  obtain ⟨ws, hws⟩ : ∃ ws : List (LTok K), ws = (List.range W).map fun k => LTok.num (m.w k) := ⟨_, rfl⟩
  rw [← hW, ← hws, List.take_of_length_le (by omega)]
  unfold loadModelText
  have hh : ∀ fuel, loadHeader rnd (fuel + 6) ([.word "solver_type"] ++ [.word s] ++ [.word "nr_class", .int (m.nrClass : Int),
      .word "label"] ++ m.label.map LTok.int ++ [.word "nr_feature", .int (m.nrFeature : Int), .word "bias", .num m.bias, .word "w"] ++ ws) {} =
      Res.ok (⟨some solver, some m.nrClass, some m.label, some m.nrFeature, some m.bias⟩, ws) := by
    intro fuel
    simp only [List.append_assoc, List.cons_append, List.nil_append, loadHeader, if_true, f1, f2]
    simp only [show ("nr_class" : String) ≠ "solver_type" by decide, show ("label" : String) ≠ "solver_type" by decide,
      show ("label" : String) ≠ "nr_class" by decide, show ("label" : String) ≠ "nr_feature" by decide, show ("label" : String) ≠ "bias" by decide,
      show ("label" : String) ≠ "w" by decide, if_false, if_true, loadHeader, Int.ofNat_eq_natCast]
    rw [← hl, scanInts_map, Res.bind_ok]
    simp only [show ("nr_feature" : String) ≠ "solver_type" by decide, show ("nr_feature" : String) ≠ "nr_class" by decide,
      show ("bias" : String) ≠ "solver_type" by decide, show ("bias" : String) ≠ "nr_class" by decide, show ("bias" : String) ≠ "nr_feature" by decide,
      show ("w" : String) ≠ "solver_type" by decide, show ("w" : String) ≠ "nr_class" by decide, show ("w" : String) ≠ "nr_feature" by decide,
      show ("w" : String) ≠ "bias" by decide,
      if_false, if_true, loadHeader, hb]
  have hlen : ∃ fuel, ([.word "solver_type"] ++ [.word s] ++ [.word "nr_class", .int (m.nrClass : Int),
      .word "label"] ++ m.label.map LTok.int ++ [.word "nr_feature", .int (m.nrFeature : Int), .word "bias", .num m.bias, .word "w"] ++ ws :
        List (LTok K)).length = fuel + 6 := ⟨4 + (m.label.length + ws.length), by simp; omega⟩
  obtain ⟨fuel, hf⟩ := hlen
  rw [hf, hh fuel, Res.bind_ok]
  simp only
  have hwl : (weightCount m.nrFeature m.nrClass m.bias) = ((List.range W).map m.w).length := by simp [hW]
  rw [hwl, hws, show ((List.range W).map fun k => LTok.num (m.w k)) = ((List.range W).map m.w).map LTok.num by simp, scanNums_map,
    Res.map_ok]
  congr 3
  funext k
  simp only [List.length_map, List.length_range, List.getD_eq_getElem?_getD, List.getElem?_map]
  by_cases hk : k < W
  · simp [hk]
  · simp [hk]

theorem decValue_same {m m' : LModel K} (h : m.Same m') (nds : List (FNode K)) (hi : ∀ nd ∈ nds, 1 ≤ nd.index) {i : Nat}
    (hc : i < if m.nrClass = 2 then 1 else m.nrClass) : decValue m' nds i = decValue m nds i := by
  unfold decValue
  simp only [h.nrFeature, h.nrClass, h.bias]
  have hw := h.weights
  unfold weightCount at hw
  generalize (if 0 ≤ m.bias then m.nrFeature + 1 else m.nrFeature) = n at hw ⊢
  generalize (if m.nrClass = 2 then 1 else m.nrClass) = c at hw hc ⊢
  generalize (0 : K) = acc
  induction nds generalizing acc with
  | nil => rfl
  | cons nd nds ih =>
    have h1 := hi nd (by simp)
    simp only [List.foldl_cons]
    rw [ih fun q hq => hi q (by simp [hq])]
    congr 1
    by_cases hle : nd.index ≤ (n : Int)
    · rw [if_pos hle, if_pos hle, hw]
      have h2 : (nd.index - 1).toNat + 1 ≤ n := by omega
      calc (nd.index - 1).toNat * c + i < (nd.index - 1).toNat * c + c := by omega
        _ = ((nd.index - 1).toNat + 1) * c := by rw [Nat.add_mul, Nat.one_mul]
        _ ≤ n * c := Nat.mul_le_mul_right _ h2
    · rw [if_neg hle, if_neg hle]

theorem decMax_congr {dec dec' : Nat → K} {n : Nat} (h : ∀ i, i < n → dec' i = dec i) : ∀ k i best, i + k ≤ n → best < n →
    decMax dec' k i best = decMax dec k i best := by
  intro k
  induction k with
  | zero => intro i best _ _; rfl
  | succ k ih =>
    intro i best h1 h2
    simp only [decMax, h i (by omega), h best h2]
    apply ih
    · omega
    · split <;> omega

/-- Models with the same weights predict the same. -/
theorem libPredict_same {m m' : LModel K} (h : m.Same m') (x : List K) : libPredict m' x = libPredict m x := by
  obtain ⟨space, h1, h2⟩ := convertVector_spec x
  have hi : ∀ nd ∈ sparse (fun v : K => 0 < v) x 0, 1 ≤ nd.index := by
    intro nd hnd
    have := (sparse_index (fun v : K => 0 < v) x 0 nd hnd).1
    omega
  unfold libPredict
  rw [h1, Res.bind_ok, Res.bind_ok, h2]
  simp only [Option.elim_some]
  unfold predictValues
  rw [h.nrClass, h.label]
  by_cases h2 : m.nrClass = 2
  · rw [if_pos h2, if_pos h2, decValue_same h _ hi (by rw [if_pos h2]; omega)]
  · rw [if_neg h2, if_neg h2]
    by_cases h0 : m.nrClass = 0
    · simp only [h0, Nat.zero_sub, decMax]
    · rw [decMax_congr (n := m.nrClass) (fun i hi' => decValue_same h _ hi (by rw [if_neg h2]; exact hi')) _ _ _ (by omega) (by omega)]

/-! ## Linear support vector machines -/

omit [Field K] [LinearOrder K] in
theorem floats_roundtrip {num : K → U64} {val : U64 → K} (l : List K) (h : ∀ x ∈ l, val (num x) = x) :
    mapRes (floatOfJson val) (l.map fun x => Json.flt (num x)) = Res.ok l := by
  induction l with
  | nil => rfl
  | cons x xs ih =>
    simp only [List.map_cons, mapRes, floatOfJson, Res.bind_ok, ih fun y hy => h y (by simp [hy]), h x (by simp)]

omit [Field K] [LinearOrder K] in
theorem params_roundtrip (E : SvcEnv K) (p : Option (SvcParams K)) (h : ∀ q, p = some q → E.KeepsParams q) :
    ∃ j, svcParamsToJson E p = Res.ok j ∧ svcParamsOfJson E j = Res.ok p := by
  cases p with
  | none => exact ⟨_, rfl, rfl⟩
  | some p =>
    obtain ⟨h1, h2, h3⟩ := h p rfl
    refine ⟨_, if_pos ?_, ?_⟩
    · simp only [List.all_eq_true, List.mem_append, List.mem_cons, List.not_mem_nil, or_false]
      rintro x (hx | rfl | rfl)
      · cases hw : p.weights with
        | none => rw [hw] at hx; cases hx
        | some ws => rw [hw] at hx; exact (h3 ws hw x hx).2
      · exact h1.2
      · exact h2.2
    · obtain ⟨solver, weights, c, eps, auto, dual⟩ := p
      have hw : weightsOfJson E (some (weightsToJson E weights)) = Res.ok weights := by
        cases weights with
        | none => rfl
        | some ws =>
          simp only [weightsToJson, weightsOfJson, floats_roundtrip ws fun x hx => (h3 ws rfl x hx).1, Res.map_ok]
      simp only [svcParamsOfJson, Json.field, List.find?_cons, Option.map_some, String.reduceBEq]
      rw [hw, Res.bind_ok]
      simp only [floatOfJson, Res.bind_ok, Res.map_ok, h1.1, h2.1]

/-- The text of a model is read as it was written. -/
def SvcEnv.Ok (E : SvcEnv K) : Prop := ∀ ts, E.parse (E.text ts) = Res.ok ts

theorem svc_entries_rounded (E : SvcEnv K) (hE : E.Ok) (m : SvcModel K) (solver : Nat) (lm : LModel K) (hk : m.Written E solver lm) (pre : String) :
    ∃ es : Archive, (∀ e ∈ es, e.1 = tarPrefix pre "PARAMETERS" ∨ e.1 = tarPrefix pre "MODEL") ∧
      (∀ w : Writer, w.closed = false → saveSvc E m w pre = Res.ok ⟨w.entries ++ es, false⟩) ∧
      ∀ ar, Agrees ar es → loadSvc E ar pre = Res.ok ⟨m.params, some (solver, loadedModel E.rnd lm)⟩ := by
  obtain ⟨s, hs, hne⟩ := hk.named
  obtain ⟨ts, t1, t2⟩ := text_roundtrip E.rnd solver lm hs hne hk.labels hk.bias
  obtain ⟨j, j1, j2⟩ := params_roundtrip E m.params hk.params
  refine ⟨[(tarPrefix pre "PARAMETERS", .json j), (tarPrefix pre "MODEL", .bytes (E.text ts))], ?_, ?_, ?_⟩
  · intro e he
    simp only [List.mem_cons, List.not_mem_nil, or_false] at he
    rcases he with rfl | rfl
    · exact Or.inl rfl
    · exact Or.inr rfl
  · intro w hw
    simp [saveSvc, j1, hk.trained, t1, Writer.write, hw, writeForKey]
  · intro ar ha
    have h1 : getJsonForKey ar (tarPrefix pre "PARAMETERS") = Res.ok j := by
      rw [getJsonForKey, getNamedFile_eq_of_mem ha (by rw [getNamedFile, if_pos rfl]), Res.bind_ok]
    have h2 : getNamedFile ar (tarPrefix pre "MODEL") = Res.ok (.bytes (E.text ts)) :=
      getNamedFile_eq_of_mem ha (by
        rw [getNamedFile, if_neg (tag_ne pre (n := 1) (by decide)), getNamedFile, if_pos rfl])
    rw [loadSvc, h1, Res.bind_ok, j2, Res.bind_ok, h2, Res.bind_ok]
    simp only
    rw [hE, Res.bind_ok, t2, Res.map_ok]

theorem loaded_same {E : SvcEnv K} {m : SvcModel K} {solver : Nat} {lm : LModel K} (hk : m.Kept E solver lm) :
    m.Same ⟨m.params, some (solver, loadedModel E.rnd lm)⟩ :=
  ⟨rfl, solver, lm, _, hk.trained, rfl, rfl, rfl, rfl, rfl, fun k hk' => by simp only [loadedModel, if_pos hk', hk.weights k hk']⟩

theorem svc_entries (E : SvcEnv K) (hE : E.Ok) (m : SvcModel K) (solver : Nat) (lm : LModel K) (hk : m.Kept E solver lm) (pre : String) :
    ∃ es : Archive, (∀ e ∈ es, e.1 = tarPrefix pre "PARAMETERS" ∨ e.1 = tarPrefix pre "MODEL") ∧
      (∀ w : Writer, w.closed = false → saveSvc E m w pre = Res.ok ⟨w.entries ++ es, false⟩) ∧
      ∀ ar, Agrees ar es → ∃ m', loadSvc E ar pre = Res.ok m' ∧ m.Same m' := by
  obtain ⟨es, h1, h2, h3⟩ := svc_entries_rounded E hE m solver lm hk.toWritten pre
  exact ⟨es, h1, h2, fun ar ha => ⟨_, h3 ar ha, loaded_same hk⟩⟩

theorem svc_restores (E : SvcEnv K) (hE : E.Ok) (m : SvcModel K) (solver : Nat) (lm : LModel K) (hk : m.Kept E solver lm) :
    Restores (saveSvc E m) (loadSvc E) m.Same false := by
  intro pre
  obtain ⟨es, h1, h2, h3⟩ := svc_entries E hE m solver lm hk pre
  exact ⟨es, fun e he => (h1 e he).elim (fun h => ⟨_, h⟩) fun h => ⟨_, h⟩, h2, h3⟩
end

/-! ## Lists of things under numbered keys -/

theorem tarPrefix_ne_empty (pre : String) {s : String} (h : s ≠ "") : tarPrefix pre s ≠ "" := by
  unfold tarPrefix
  split
  · exact h
  · intro e
    rw [String.ext_iff] at e
    simp at e

/-- The names under `pre/name/i`. -/
theorem numbered_entry (pre name : String) (hn : name ≠ "") (i : Nat) (s : String) :
    tarPrefix (tarPrefix pre (tarPrefix name (Nat.repr i))) s = tarPrefix pre (name ++ "/" ++ Nat.repr i ++ "/" ++ s) := by
  have h1 : tarPrefix name (Nat.repr i) = name ++ "/" ++ Nat.repr i := tarPrefix_of_ne hn _
  have h2 : tarPrefix name (Nat.repr i) ≠ "" := by
    rw [h1]
    intro e
    rw [String.ext_iff] at e
    simp at e
  rw [tarPrefix_of_ne (tarPrefix_ne_empty pre h2), h1, ← tarPrefix_append, ← tarPrefix_append]

theorem numbered_ne (pre name : String) (hn : name ≠ "") {i j : Nat} (h : i ≠ j) (s t : String) :
    tarPrefix (tarPrefix pre (tarPrefix name (Nat.repr i))) s ≠ tarPrefix (tarPrefix pre (tarPrefix name (Nat.repr j))) t := by
  rw [numbered_entry pre name hn, numbered_entry pre name hn]
  intro e
  have e := tarPrefix_inj _ _ _ e
  rw [String.ext_iff] at e
  simp only [String.toList_append, List.append_assoc, List.append_cancel_left_eq] at e
  exact h (repr_inj (String.ext_iff.2 (slash_split (repr_no_slash i) (repr_no_slash j) e)))

/-- The same without a name: the names under `key/i`. -/
theorem plain_ne (key : String) (hk : key ≠ "") {i j : Nat} (h : i ≠ j) (s t : String) :
    tarPrefix (tarPrefix key (Nat.repr i)) s ≠ tarPrefix (tarPrefix key (Nat.repr j)) t := by
  have := numbered_ne "" key hk h s t
  rwa [show ∀ x, tarPrefix "" x = x from fun x => if_pos rfl] at this

theorem repr_ne_empty (i : Nat) : Nat.repr i ≠ "" := by
  intro e
  have h : (Nat.repr i).toList ≠ [] := by
    rw [Nat.toList_repr]
    exact Nat.toDigits_ne_nil
  rw [e] at h
  exact h rfl

/-- `Restores` for one prefix. -/
def RestoresAt {μ : Type} (save : Writer → String → Res Writer) (load : Archive → String → Res μ) (good : μ → Prop) (pre : String) : Prop :=
  ∃ es : Archive, (∀ e ∈ es, ∃ s, e.1 = tarPrefix pre s) ∧
    (∀ w : Writer, w.closed = false → save w pre = Res.ok ⟨w.entries ++ es, false⟩) ∧
    ∀ ar, Agrees ar es → ∃ m, load ar pre = Res.ok m ∧ good m

/-- Things that are saved one after the other under different keys are all restored. -/
theorem each_restores {M μ : Type} (save : M → Writer → String → Res Writer) (load : Nat → Archive → String → Res μ)
    (good : Nat → μ → Prop) (key : Nat → String) (hkey : ∀ i j, i ≠ j → ∀ s t, tarPrefix (key i) s ≠ tarPrefix (key j) t)
    (ms : List M) (hm : ∀ i m, ms[i]? = some m → RestoresAt (save m) (load i) (good i) (key i)) :
    ∃ es : Archive, (∀ e ∈ es, ∃ i s, e.1 = tarPrefix (key i) s) ∧
      (∀ w : Writer, w.closed = false → saveEach save key ms 0 w = Res.ok ⟨w.entries ++ es, false⟩) ∧
      ∀ ar, Agrees ar es → ∀ i, i < ms.length → ∃ x, load i ar (key i) = Res.ok x ∧ good i x := by
  have ex : ∀ i, ∃ E : Archive, (∀ e ∈ E, ∃ s, e.1 = tarPrefix (key i) s) ∧
      ∀ m, ms[i]? = some m → (∀ w : Writer, w.closed = false → save m w (key i) = Res.ok ⟨w.entries ++ E, false⟩) ∧
        ∀ ar, Agrees ar E → ∃ x, load i ar (key i) = Res.ok x ∧ good i x := by
    intro i
    cases h : ms[i]? with
    | none => exact ⟨[], by simp, by simp⟩
    | some m =>
      obtain ⟨E, h1, h2, h3⟩ := hm i m h
      refine ⟨E, h1, ?_⟩
      intro m' hm'
      simp only [Option.some.injEq] at hm'
      subst hm'
      exact ⟨h2, h3⟩
  choose E hE1 hE2 using ex
  refine ⟨(List.range ms.length).flatMap E, ?_, ?_, ?_⟩
  · intro e he
    obtain ⟨i, _, he⟩ := List.mem_flatMap.1 he
    obtain ⟨s, hs⟩ := hE1 i e he
    exact ⟨i, s, hs⟩
  · intro w hw
    have := saveEach_eq save key E ms 0 (by
      intro j m hj w hw
      rw [Nat.zero_add]
      exact (hE2 j m hj).1 w hw) w hw
    simpa only [Nat.zero_add] using this
  · intro ar ha i hi
    have := agrees_flatMap E List.nodup_range (by
      intro i j hij p hp q hq
      obtain ⟨s, hs⟩ := hE1 i p hp
      obtain ⟨t, ht⟩ := hE1 j q hq
      rw [hs, ht]
      exact hkey i j hij s t) ha i (List.mem_range.2 hi)
    exact (hE2 i ms[i] (by simp [hi])).2 ar this

/-! ## Filters -/

theorem pair_restores (nilVals : Bool) (viaFloat : Int → Int) (fresh : Nat) (copy : Dense) (hd : (Grid.dense copy).distinct)
    (p : Attr × Attr) (a : Attr) (ha : a ∈ copy.allAttributes) (hb : a.body = p.1.body) (h1 : AttrKept nilVals viaFloat p.1.body)
    (h2 : AttrKept nilVals viaFloat p.2.body) :
    Restores (saveOvaPair nilVals p) (loadOvaPair viaFloat fresh copy) (fun q => q = (a, ⟨fresh, p.2.body⟩)) false := by
  intro key
  refine ⟨[(tarPrefix key "KEY", .json (attrToJson nilVals p.1.body)), (tarPrefix key "VAL", .json (attrToJson nilVals p.2.body))], ?_, ?_, ?_⟩
  · intro e he
    simp only [List.mem_cons, List.not_mem_nil, or_false] at he
    rcases he with rfl | rfl <;> exact ⟨_, rfl⟩
  · intro w hw
    simp [saveOvaPair, Writer.attribute, Writer.write, hw, writeForKey]
  · intro ar har
    have f1 := getNamedFile_eq_of_mem har (k := tarPrefix key "KEY") (by rw [getNamedFile, if_pos rfl])
    have f2 := getNamedFile_eq_of_mem har (k := tarPrefix key "VAL") (by
      rw [getNamedFile, if_neg (tag_ne key (n := 1) (by decide)), getNamedFile, if_pos rfl])
    refine ⟨_, ?_, rfl⟩
    unfold loadOvaPair getAttributeForKey
    rw [f1, Res.bind_ok]
    simp only
    rw [attrKept_roundtrip h1, Res.bind_ok, f2, Res.bind_ok]
    simp only
    rw [attrKept_roundtrip h2, Res.bind_ok, replaceAttr_spec (as := copy.allAttributes) hd ha hb, Res.map_ok]

theorem foldl_set_pairs {κ ν : Type} [DecidableEq κ] (ps : List (κ × ν)) (m : GoMap κ ν) (hnd : (ps.map Prod.fst).Nodup)
    (hdis : ∀ p ∈ ps, p.1 ∉ m.map Prod.fst) : ps.foldl (fun m p => GoMap.set m p.1 p.2) m = m ++ ps := by
  induction ps generalizing m with
  | nil => simp
  | cons p ps ih =>
    have hset : m.set p.1 p.2 = m ++ [p] := by
      have := hdis p List.mem_cons_self
      clear ih hdis
      induction m with
      | nil => rfl
      | cons q rest ihm =>
        obtain ⟨k', v⟩ := q
        simp only [List.map_cons, List.mem_cons, not_or] at this
        rw [GoMap.set, if_neg (fun e => this.1 e.symm), ihm this.2]
        rfl
    rw [List.map_cons, List.nodup_cons] at hnd
    rw [List.foldl_cons, hset, ih _ hnd.2]
    · simp
    · intro x hx
      simp only [List.map_append, List.mem_append, List.map_cons, List.map_nil, List.mem_singleton, not_or]
      exact ⟨hdis x (List.mem_cons_of_mem _ hx), fun e => hnd.1 (e ▸ List.mem_map_of_mem hx)⟩

/-- What has to be true of a filter for it to be saved. -/
structure FilterKept (nilVals : Bool) (viaFloat : Int → Int) (fitOn : Dense) (f : OvaFilter) : Prop where
  keys : (f.attrs.map Prod.fst).Nodup
  cls : f.cls ∈ fitOn.allAttributes
  known : ∀ p ∈ f.attrs, p.1 ∈ fitOn.allAttributes
  kept : ∀ p ∈ f.attrs, AttrKept nilVals viaFloat p.2.body

theorem filter_restores (nilVals : Bool) (viaFloat : Int → Int) (ord : OvaFilter → GoMap Attr Attr) (hord : ∀ f, (ord f).Perm f.attrs)
    (fresh : Nat → Nat) (fitOn copy : Dense) (hd0 : (Grid.dense fitOn).distinct) (hd : (Grid.dense copy).distinct)
    (hs : (copy.allAttributes.map Attr.body).Perm (fitOn.allAttributes.map Attr.body))
    (hk : ∀ a ∈ fitOn.allAttributes, AttrKept nilVals viaFloat a.body) (hfew : fitOn.allAttributes.length < 2 ^ 64) (f : OvaFilter)
    (hf : FilterKept nilVals viaFloat fitOn f) :
    ∀ key, key ≠ "" → RestoresAt (saveOvaFilter nilVals ord f) (loadOvaFilter viaFloat fresh copy)
      (fun f' => f.Same f' ∧ f'.cls ∈ copy.allAttributes ∧ ∀ p ∈ f'.attrs, p.1 ∈ copy.allAttributes) key := by
  intro key hkey
  have hin : ∀ a ∈ fitOn.allAttributes, ∃ a' ∈ copy.allAttributes, a'.body = a.body := by
    intro a ha
    obtain ⟨a', h1, h2⟩ := List.mem_map.1 (hs.symm.subset (List.mem_map_of_mem ha))
    exact ⟨a', h1, h2⟩
  have hto : ∃ tw : Attr → Attr, ∀ a ∈ fitOn.allAttributes, tw a ∈ copy.allAttributes ∧ (tw a).body = a.body := by
    refine ⟨fun a => if h : a ∈ fitOn.allAttributes then (hin a h).choose else a, ?_⟩
    intro a ha
    simp only [dif_pos ha]
    exact (hin a ha).choose_spec
  obtain ⟨tw, hto⟩ := hto
  have hm : ∀ p ∈ ord f, p ∈ f.attrs := fun p hp => (hord f).subset hp
  have hinj : ∀ a ∈ fitOn.allAttributes, ∀ b ∈ fitOn.allAttributes, tw a = tw b → a = b := by
    intro a ha b hb e
    refine distinct_eq hd0 ha hb ?_
    have := C28_equals_refl (tw a)
    unfold Attr.equals at this ⊢
    rw [← (hto a ha).2, ← (hto b hb).2, ← e]
    exact this
  obtain ⟨es, e1, e2, e3⟩ := each_restores (saveOvaPair nilVals) (fun j => loadOvaPair viaFloat (fresh j) copy)
    (fun j q => ∃ p, (ord f)[j]? = some p ∧ q = (tw p.1, ⟨fresh j, p.2.body⟩)) (fun j => tarPrefix key (Nat.repr j))
    (fun i j hij s t => plain_ne key hkey hij s t) (ord f) (by
      intro i p hi
      have hp := hm p (List.mem_of_getElem? hi)
      obtain ⟨E, q1, q2, q3⟩ := pair_restores nilVals viaFloat (fresh i) copy hd p (tw p.1) (hto _ (hf.known p hp)).1
        (hto _ (hf.known p hp)).2 (hk _ (hf.known p hp)) (hf.kept p hp) (tarPrefix key (Nat.repr i))
      refine ⟨E, q1, q2, fun ar ha => ?_⟩
      obtain ⟨q, r1, r2⟩ := q3 ar ha
      exact ⟨q, r1, p, hi, r2⟩)
  have nP : ∀ (x : String) (i : Nat) (s : String), x.toList.take 1 = ['C'] → tarPrefix key x ≠ tarPrefix (tarPrefix key (Nat.repr i)) s := by
    intro x i s hx
    rw [tarPrefix_of_ne (tarPrefix_ne_empty key (repr_ne_empty i)), String.append_assoc, ← tarPrefix_append]
    intro e
    have e := tarPrefix_inj _ _ _ e
    rw [e] at hx
    have hne : (Nat.repr i).toList ≠ [] := by
      rw [Nat.toList_repr]
      exact Nat.toDigits_ne_nil
    rw [String.toList_append] at hx
    cases hl : (Nat.repr i).toList with
    | nil => exact hne hl
    | cons c cs =>
      rw [hl, List.cons_append, List.take_succ_cons] at hx
      have hc : c.isDigit = true := by
        have : c ∈ (Nat.repr i).toList := by rw [hl]; simp
        rw [Nat.toList_repr] at this
        exact Nat.isDigit_of_mem_toDigits (by decide) (by decide) this
      simp only [List.take_zero, List.cons.injEq, and_true] at hx
      rw [hx] at hc
      revert hc
      decide
  refine ⟨[(tarPrefix key "COUNT", .bytes (packU64 (BitVec.ofNat 64 f.attrs.length)))] ++ (es ++
    [(tarPrefix key "CLASS_ATTR", .json (attrToJson nilVals f.cls.body)), (tarPrefix key "CLASS_VAL", .bytes (packU64 f.val))]), ?_, ?_, ?_⟩
  · intro e he
    simp only [List.mem_append, List.mem_cons, List.not_mem_nil, or_false] at he
    rcases he with rfl | he | rfl | rfl
    · exact ⟨_, rfl⟩
    · obtain ⟨i, s, hs⟩ := e1 e he
      refine ⟨Nat.repr i ++ ("/" ++ s), ?_⟩
      rw [hs, tarPrefix_of_ne (tarPrefix_ne_empty key (repr_ne_empty i)), tarPrefix_append, String.append_assoc]
    · exact ⟨_, rfl⟩
    · exact ⟨_, rfl⟩
  · intro w hw
    obtain ⟨we, wc⟩ := w
    cases hw
    simp only [saveOvaFilter, Writer.attribute, Writer.write, writeForKey, Bool.false_eq_true, if_false, Res.bind_ok]
    rw [e2 _ rfl, Res.bind_ok]
    simp
  · intro ar ha
    have a1 := agrees_append_left ha
    have a2 := agrees_append_right ha (by
      intro p hp q hq
      simp only [List.mem_cons, List.not_mem_nil, or_false] at hp
      subst hp
      simp only [List.mem_append, List.mem_cons, List.not_mem_nil, or_false] at hq
      rcases hq with hq | rfl | rfl
      · obtain ⟨i, s, hs⟩ := e1 q hq
        rw [hs]
        exact nP _ i s (by decide)
      · exact tag_ne key (n := 5) (by decide)
      · exact tag_ne key (n := 5) (by decide))
    have a3 := agrees_append_left a2
    have a4 := agrees_append_right a2 (by
      intro p hp q hq
      obtain ⟨i, s, hs⟩ := e1 p hp
      rw [hs]
      simp only [List.mem_cons, List.not_mem_nil, or_false] at hq
      rcases hq with rfl | rfl
      · exact (nP _ i s (by decide)).symm
      · exact (nP _ i s (by decide)).symm)
    have f1 : getU64ForKey ar (tarPrefix key "COUNT") = Res.ok (BitVec.ofNat 64 f.attrs.length) := by
      rw [getU64ForKey, getNamedFile_eq_of_mem a1 (by rw [getNamedFile, if_pos rfl]), Res.bind_ok]
      exact C01_unpack_pack _
    have f2 : getAttributeForKey viaFloat ar (tarPrefix key "CLASS_ATTR") = Res.ok f.cls.body := by
      rw [getAttributeForKey, getNamedFile_eq_of_mem a4 (by rw [getNamedFile, if_pos rfl]), Res.bind_ok]
      exact attrKept_roundtrip (hk _ hf.cls)
    have f3 : getU64ForKey ar (tarPrefix key "CLASS_VAL") = Res.ok f.val := by
      rw [getU64ForKey, getNamedFile_eq_of_mem a4 (by
        rw [getNamedFile, if_neg (tag_ne key (n := 7) (by decide)), getNamedFile, if_pos rfl]), Res.bind_ok]
      exact C01_unpack_pack _
    have hlen : f.attrs.length < 2 ^ 64 := by
      have : (f.attrs.map Prod.fst).length ≤ fitOn.allAttributes.length := by
        refine (List.subperm_of_subset hf.keys ?_).length_le
        intro x hx
        obtain ⟨p, hp, rfl⟩ := List.mem_map.1 hx
        exact hf.known p hp
      rw [List.length_map] at this
      omega
    have hn : (BitVec.ofNat 64 f.attrs.length).toNat = (ord f).length := by
      rw [BitVec.toNat_ofNat, Nat.mod_eq_of_lt hlen, (hord f).length_eq]
    have hps : mapRes (fun j => loadOvaPair viaFloat (fresh j) copy ar (tarPrefix key (Nat.repr j))) (List.range (ord f).length) =
        Res.ok ((ord f).mapIdx fun j p => (tw p.1, ⟨fresh j, p.2.body⟩)) := by
      rw [mapRes_eq_ok, List.forall₂_iff_get]
      refine ⟨by simp, ?_⟩
      intro i h1 h2
      simp only [List.get_eq_getElem, List.getElem_range, List.getElem_mapIdx]
      simp only [List.length_mapIdx] at h2
      obtain ⟨q, r1, p, r2, r3⟩ := e3 ar a3 i h2
      rw [r1, r3]
      rw [List.getElem?_eq_getElem h2, Option.some.injEq] at r2
      rw [r2]
    have hfst : ((ord f).mapIdx fun j p => ((tw p.1, ⟨fresh j, p.2.body⟩) : Attr × Attr)).map Prod.fst = (ord f).map fun p => tw p.1 := by
      refine List.ext_getElem (by simp) ?_
      intro i h1 h2
      simp
    have hnd : (((ord f).mapIdx fun j p => ((tw p.1, ⟨fresh j, p.2.body⟩) : Attr × Attr)).map Prod.fst).Nodup := by
      rw [hfst]
      have h1 : ((ord f).map Prod.fst).Nodup := ((hord f).map Prod.fst).nodup_iff.2 hf.keys
      rw [show ((ord f).map fun p => tw p.1) = ((ord f).map Prod.fst).map tw by simp]
      refine List.Nodup.map_on ?_ h1
      intro a ha b hb
      obtain ⟨p, hp, rfl⟩ := List.mem_map.1 ha
      obtain ⟨q, hq, rfl⟩ := List.mem_map.1 hb
      exact hinj _ (hf.known p (hm p hp)) _ (hf.known q (hm q hq))
    refine ⟨⟨(ord f).mapIdx fun j p => (tw p.1, ⟨fresh j, p.2.body⟩), tw f.cls, f.val⟩, ?_, ⟨rfl, (hto _ hf.cls).2, ?_⟩, (hto _ hf.cls).1, ?_⟩
    · unfold loadOvaFilter
      rw [f1, Res.bind_ok, hn, hps, Res.bind_ok, f2, Res.bind_ok, replaceAttr_spec (as := copy.allAttributes) hd (hto _ hf.cls).1 (hto _ hf.cls).2, Res.bind_ok, f3,
        Res.map_ok, foldl_set_pairs _ _ hnd (by simp), List.nil_append]
    · refine List.Perm.trans (List.Perm.of_eq ?_) ((hord f).map _)
      refine List.ext_getElem (by simp) ?_
      intro i h1 h2
      simp only [List.length_map, List.length_mapIdx] at h1
      simp only [List.getElem_map, List.getElem_mapIdx]
      rw [(hto _ (hf.known _ (hm _ (List.getElem_mem h1)))).2]
    · intro p hp
      have : p.1 ∈ ((ord f).mapIdx fun j p => ((tw p.1, ⟨fresh j, p.2.body⟩) : Attr × Attr)).map Prod.fst := List.mem_map_of_mem hp
      rw [hfst] at this
      obtain ⟨q, hq, e⟩ := List.mem_map.1 this
      rw [← e]
      exact (hto _ (hf.known _ (hm q hq))).1

/-! ## The whole model -/

theorem strings_roundtrip (l : List String) : mapRes stringOfJson (l.map Json.str) = Res.ok l := by
  induction l with
  | nil => rfl
  | cons s l ih => simp [mapRes, stringOfJson, ih]

/-- How the names of the entries of a one-vs-all model start. -/
def ovaTags : List (List Char) := ["INSTANC".toList, "CLASS_V".toList, "FILTER_".toList, "FILTER/".toList, "CLASSIF".toList]

/-- Everything about saving a one-vs-all model and loading it. -/
theorem ova_entries {M μ : Type} (G : GridEnv) (hG : G.Ok) (nilVals : Bool) (viaFloat : Int → Int)
    (ord : OvaFilter → GoMap Attr Attr) (hord : ∀ f, (ord f).Perm f.attrs)
    (save : M → Writer → String → Res Writer) (mk : String → Res Unit) (load : String → Archive → String → Res μ)
    (fresh : Nat → Nat → Nat) (freshF : Attr → Nat) (ordF : Nat → List FAttr → List FAttr) (good : Nat → μ → Prop) (m : SavedOva M)
    (hk : m.Kept nilVals viaFloat) (hmk : ∀ s ∈ m.classValues, mk s = Res.ok ())
    (hm : ∀ i q s, m.models[i]? = some q → m.classValues[i]? = some s → Restores (save q) (load s) (good i) false) (pre : String) :
    ∃ es : Archive, (∀ e ∈ es, ∃ s, e.1 = tarPrefix pre s ∧ s.toList.take 7 ∈ ovaTags) ∧
      (∀ w : Writer, w.closed = false → saveOva G nilVals ord save m w pre = Res.ok ⟨w.entries ++ es, true⟩) ∧
      ∀ ar, Agrees ar es → ∃ m', loadOva G viaFloat mk load fresh freshF ordF ar pre = Res.ok m' ∧ m.Restored good m' := by
  obtain ⟨gs, g1, g2, d, g3, g4, g5, _, g6, _⟩ := grid_entries G hG nilVals viaFloat (.dense m.fitOn) 0 hk.grid []
    (by simp [Grid.RowOrder, hk.empty]) (Or.inl rfl) (tarPrefix pre "INSTANCE_STRUCTURE")
  -- the grid that is loaded
  obtain ⟨c, nm, hc1, hc2⟩ := hk.cls
  obtain ⟨c', hc1', hc2'⟩ : ∃ c', d.allClassAttributes = [c'] ∧ c'.body = .cat nm m.classValues := by
    have h1 := g6.2.1
    simp only [Grid.allClassAttributes, hc1, List.map_cons, List.map_nil, List.perm_singleton] at h1
    match hl : d.allClassAttributes with
    | [] => rw [hl] at h1; simp at h1
    | [c'] =>
      rw [hl] at h1
      simp only [List.map_cons, List.map_nil, List.cons.injEq, and_true] at h1
      exact ⟨c', rfl, h1.trans hc2⟩
    | _ :: _ :: _ => rw [hl] at h1; simp at h1
  obtain ⟨copy, s1, s2, y1, y2, y3, y4, y5, y6⟩ := structural_copy G.pg (.dense d) (fun a ha => let ⟨s, h, _⟩ := g4.read a ha; ⟨s, h⟩) g5
    (G.cls (.dense d)) (by
      intro x hx
      have hx := (hG.cls (.dense d)).subset hx
      have hx' : x ∈ d.allClassAttributes := hx
      rw [hc1'] at hx'
      simp only [List.mem_singleton] at hx'
      subst hx'
      have hcin : c ∈ m.fitOn.allAttributes := hk.grid.classes c (by simp [Grid.allClassAttributes, hc1])
      obtain ⟨b, hb1, hb2⟩ := List.mem_map.1 (g6.1.symm.subset (List.mem_map_of_mem hcin))
      have : b ∈ d.allClassAttributes := (g6.2.2 c hcin b hb1 hb2).2 (by simp [Grid.allClassAttributes, hc1])
      rw [hc1', List.mem_singleton] at this
      exact this ▸ hb1)
  have hy : (copy.allAttributes.map Attr.body).Perm (m.fitOn.allAttributes.map Attr.body) := (y4.map _).trans g6.1
  have hycls : ∀ x, x ∈ copy.allClassAttributes ↔ x = c' := by
    intro x
    rw [y5, (hG.cls (.dense d)).mem_iff]
    simp [Grid.allClassAttributes, hc1']
  have hyc : copy.allClassAttributes = [c'] := by
    refine List.perm_singleton.1 ((List.perm_ext_iff_of_nodup y6 (by simp)).2 ?_)
    intro x
    rw [hycls, List.mem_singleton]
  have hsame : SameStructure (.dense m.fitOn) (.dense copy) := by
    refine ⟨hy, ?_, ?_⟩
    · simp only [Grid.allClassAttributes, hyc, hc1, List.map_cons, List.map_nil, hc2, hc2', List.Perm.refl]
    · intro a ha a' ha' hb
      have := g6.2.2 a ha a' (y4.subset ha') hb
      rw [← this]
      simp only [Grid.allClassAttributes, hyc, hc1']
  obtain ⟨v, v1, v2⟩ := ovaHighest_eq m.classValues hk.values (by have := hk.few; omega)
  have hv0 : v ≠ 0#64 := by
    rintro rfl
    have := hk.two
    simp at v2
    omega
  have hvn : v.toNat + 1 = m.classValues.length := by have := hk.two; omega
  have hfit : ∃ fitted, OneVsAll.fit (fun s _ => (mk s).map fun _ _ => Res.panic) freshF ordF (.dense d) = Res.ok fitted ∧ fitted.maxVal = v := by
    obtain ⟨cs, q1, _⟩ := mapRes_forall₂ (f := ovaTrain (fun s _ => (mk s).map fun _ _ => Res.panic) m.classValues (.dense d)
      fun i => (⟨ovaAttrs freshF d.allAttributes c', c', BitVec.ofNat 64 i⟩ : OvaFilter).filter (ordF i)) (R := fun _ _ => True)
      (List.range (v.toNat + 1)) (by
        intro i hi
        have hi' : i < m.classValues.length := by have := List.mem_range.1 hi; omega
        refine ⟨fun _ => Res.panic, ?_, trivial⟩
        rw [ovaTrain, List.getElem?_eq_getElem hi']
        simp only
        rw [hmk _ (List.getElem_mem hi')]
        rfl)
    refine ⟨⟨(List.range (v.toNat + 1)).map fun i => ⟨ovaAttrs freshF d.allAttributes c', c', BitVec.ofNat 64 i⟩, cs, v, m.classValues⟩, ?_, rfl⟩
    · unfold OneVsAll.fit
      simp only [Grid.allClassAttributes, hc1', hc2', v1, Res.bind_ok, if_neg hv0]
      simp only [Grid.allAttributes]
      rw [q1, Res.map_ok]
  obtain ⟨fitted, hfit1, hfit2⟩ := hfit
  -- the blocks
  have kF : ∀ i, ovaFilterKey pre i ≠ "" := fun i => tarPrefix_ne_empty _ (tarPrefix_ne_empty _ (repr_ne_empty i))
  obtain ⟨F, F1, F2, F3⟩ := each_restores (saveOvaFilter nilVals ord) (fun i => loadOvaFilter viaFloat (fresh i) copy)
    (fun i f' => ∃ f, m.filters[i]? = some f ∧ f.Same f' ∧ f'.cls ∈ copy.allAttributes ∧ ∀ p ∈ f'.attrs, p.1 ∈ copy.allAttributes)
    (ovaFilterKey pre) (fun i j hij s t => numbered_ne pre "FILTER" (by decide) hij s t) m.filters (by
      intro i f hi
      have hf := List.mem_of_getElem? hi
      obtain ⟨E, q1, q2, q3⟩ := filter_restores nilVals viaFloat ord hord (fresh i) m.fitOn copy hk.grid.distinct y2.1 hy hk.grid.kept
        hk.grid.few f ⟨hk.keys f hf, (hk.known f hf).1, (hk.known f hf).2, hk.kept f hf⟩ (ovaFilterKey pre i) (kF i)
      refine ⟨E, q1, q2, fun ar ha => ?_⟩
      obtain ⟨f', r1, r2⟩ := q3 ar ha
      exact ⟨f', r1, f, hi, r2⟩)
  obtain ⟨C, C1, C2, C3⟩ := each_restores save (fun i => match m.classValues[i]? with | some s => load s | none => fun _ _ => Res.err) good
    (ovaClassKey pre) (fun i j hij s t => numbered_ne pre "CLASSIFIERS" (by decide) hij s t) m.models (by
      intro i q hi
      have hi' : i < m.classValues.length := by rw [← hk.models]; exact (List.getElem?_eq_some_iff.1 hi).1
      rw [List.getElem?_eq_getElem hi']
      exact hm i q _ hi (List.getElem?_eq_getElem hi') (ovaClassKey pre i))
  have hgn : ∀ e ∈ gs, ∃ s, e.1 = tarPrefix pre ("INSTANCE_STRUCTURE" ++ s) := by
    intro e he
    obtain ⟨s, _, hs⟩ := g2 e he
    exact ⟨s, by rw [hs, tarPrefix_append]⟩
  have hFn : ∀ e ∈ F, ∃ s, e.1 = tarPrefix pre ("FILTER/" ++ s) := by
    intro e he
    obtain ⟨i, s, hs⟩ := F1 e he
    refine ⟨Nat.repr i ++ "/" ++ s, ?_⟩
    rw [hs, ovaFilterKey, numbered_entry pre "FILTER" (by decide)]
    congr 1
  have hCn : ∀ e ∈ C, ∃ s, e.1 = tarPrefix pre ("CLASSIFIERS/" ++ s) := by
    intro e he
    obtain ⟨i, s, hs⟩ := C1 e he
    refine ⟨Nat.repr i ++ "/" ++ s, ?_⟩
    rw [hs, ovaClassKey, numbered_entry pre "CLASSIFIERS" (by decide)]
    congr 1
  obtain ⟨A, hA⟩ : ∃ A : Archive, A = [(tarPrefix pre "CLASS_VALUES", .json (.arr (m.classValues.map Json.str))),
    (tarPrefix pre "FILTER_COUNT", .bytes (packU64 (BitVec.ofNat 64 m.filters.length)))] := ⟨_, rfl⟩
  have tag : ∀ (T : List Char) (B : Archive), (∃ p : String, 7 ≤ p.toList.length ∧ p.toList.take 7 = T ∧
      ∀ e ∈ B, ∃ s, e.1 = tarPrefix pre (p ++ s)) → ∀ e ∈ B, ∃ s, e.1 = tarPrefix pre s ∧ s.toList.take 7 = T := by
    rintro T B ⟨p, h7, rfl, h⟩ e he
    obtain ⟨s, hs⟩ := h e he
    exact ⟨_, hs, tag_append _ _ _ h7⟩
  have tg := tag "INSTANC".toList gs ⟨"INSTANCE_STRUCTURE", by decide, by decide, hgn⟩
  have tF := tag "FILTER/".toList F ⟨"FILTER/", by decide, by decide, hFn⟩
  have tC := tag "CLASSIF".toList C ⟨"CLASSIFIERS/", by decide, by decide, hCn⟩
  have tA : ∀ e ∈ A, ∃ s, e.1 = tarPrefix pre s ∧ (s.toList.take 7 = "CLASS_V".toList ∨ s.toList.take 7 = "FILTER_".toList) := by
    intro e he
    rw [hA] at he
    simp only [List.mem_cons, List.not_mem_nil, or_false] at he
    rcases he with rfl | rfl
    · exact ⟨_, rfl, by decide⟩
    · exact ⟨_, rfl, by decide⟩
  have sep : ∀ {a b s t : String}, a = tarPrefix pre s → b = tarPrefix pre t → s.toList.take 7 ≠ t.toList.take 7 → a ≠ b := by
    rintro a b s t rfl rfl h
    exact tag_ne pre h
  refine ⟨gs ++ (A ++ (F ++ C)), ?_, ?_, ?_⟩
  · intro e he
    simp only [List.mem_append] at he
    rcases he with he | he | he | he
    · obtain ⟨s, h1, h2⟩ := tg e he
      exact ⟨s, h1, by rw [h2]; decide⟩
    · obtain ⟨s, h1, h2⟩ := tA e he
      exact ⟨s, h1, by rcases h2 with h2 | h2 <;> rw [h2] <;> decide⟩
    · obtain ⟨s, h1, h2⟩ := tF e he
      exact ⟨s, h1, by rw [h2]; decide⟩
    · obtain ⟨s, h1, h2⟩ := tC e he
      exact ⟨s, h1, by rw [h2]; decide⟩
  · intro w hw
    unfold saveOva
    rw [structure_eq G nilVals m.fitOn _ gs g1 _ hw, Res.bind_ok]
    simp only [Writer.write, writeForKey, Bool.false_eq_true, if_false, Res.bind_ok]
    rw [F2 _ rfl, Res.bind_ok, C2 _ rfl, Res.bind_ok]
    simp [Writer.close, hA]
  · intro ar ha
    have a1 := agrees_append_left ha
    have a2 := agrees_append_right ha (by
      intro p hp q hq
      obtain ⟨s, h1, h2⟩ := tg p hp
      simp only [List.mem_append] at hq
      rcases hq with hq | hq | hq
      · obtain ⟨t, h3, h4⟩ := tA q hq
        refine sep h1 h3 ?_
        rcases h4 with h4 | h4 <;> rw [h2, h4] <;> decide
      · obtain ⟨t, h3, h4⟩ := tF q hq
        refine sep h1 h3 ?_
        rw [h2, h4]
        decide
      · obtain ⟨t, h3, h4⟩ := tC q hq
        refine sep h1 h3 ?_
        rw [h2, h4]
        decide)
    have a3 := agrees_append_left a2
    have a4 := agrees_append_right a2 (by
      intro p hp q hq
      obtain ⟨s, h1, h2⟩ := tA p hp
      simp only [List.mem_append] at hq
      rcases hq with hq | hq
      · obtain ⟨t, h3, h4⟩ := tF q hq
        refine sep h1 h3 ?_
        rcases h2 with h2 | h2 <;> rw [h2, h4] <;> decide
      · obtain ⟨t, h3, h4⟩ := tC q hq
        refine sep h1 h3 ?_
        rcases h2 with h2 | h2 <;> rw [h2, h4] <;> decide)
    have a5 := agrees_append_left a4
    have a6 := agrees_append_right a4 (by
      intro p hp q hq
      obtain ⟨s, h1, h2⟩ := tF p hp
      obtain ⟨t, h3, h4⟩ := tC q hq
      refine sep h1 h3 ?_
      rw [h2, h4]
      decide)
    rw [hA] at a3
    have f1 : getJsonForKey ar (tarPrefix pre "CLASS_VALUES") = Res.ok (.arr (m.classValues.map Json.str)) := by
      rw [getJsonForKey, getNamedFile_eq_of_mem a3 (by rw [getNamedFile, if_pos rfl]), Res.bind_ok]
    have f2 : getU64ForKey ar (tarPrefix pre "FILTER_COUNT") = Res.ok (BitVec.ofNat 64 m.filters.length) := by
      rw [getU64ForKey, getNamedFile_eq_of_mem a3 (by
        rw [getNamedFile, if_neg (tag_ne pre (n := 7) (by decide)), getNamedFile, if_pos rfl]), Res.bind_ok]
      exact C01_unpack_pack _
    have hn : (BitVec.ofNat 64 m.filters.length).toNat = m.filters.length := by
      rw [BitVec.toNat_ofNat, hk.filters, Nat.mod_eq_of_lt hk.few]
    obtain ⟨fs, p1, p2⟩ := mapRes_forall₂ (f := fun i => loadOvaFilter viaFloat (fresh i) copy ar (ovaFilterKey pre i))
      (List.range m.filters.length) (fun i hi => F3 ar a5 i (List.mem_range.1 hi))
    obtain ⟨ms, q1, q2⟩ := mapRes_forall₂ (f := fun p : String × Nat => load p.1 ar (ovaClassKey pre p.2))
      (R := fun p q => good p.2 q) m.classValues.zipIdx (by
        rintro ⟨s, i⟩ hp
        have hs := List.mem_zipIdx' hp
        obtain ⟨x, x1, x2⟩ := C3 ar a6 i (by rw [hk.models]; exact hs.1)
        rw [List.getElem?_eq_getElem hs.1] at x1
        exact ⟨x, by simpa only [hs.2] using x1, x2⟩)
    refine ⟨⟨fs, ms, v, m.classValues, copy⟩, ?_, rfl, hvn, ⟨?_, ?_⟩, ?_, hsame, ?_⟩
    · unfold loadOva
      rw [g3 ar a1, Res.bind_ok, hfit1, Res.bind_ok, y1, Res.bind_ok, f2, Res.bind_ok, hn, p1, Res.bind_ok, f1, Res.bind_ok]
      simp only
      rw [stringsOfJson, strings_roundtrip, Res.bind_ok, q1, Res.map_ok, hfit2]
    · rw [← q2.length_eq, List.length_zipIdx, hk.models]
    · intro i q hi
      obtain ⟨h1, h2⟩ := List.getElem?_eq_some_iff.1 hi
      have h3 : i < m.classValues.zipIdx.length := by rw [q2.length_eq]; exact h1
      have := (List.forall₂_iff_get.1 q2).2 i h3 h1
      simp only [List.get_eq_getElem, List.getElem_zipIdx, Nat.zero_add] at this
      rw [h2] at this
      exact this
    · refine List.forall₂_iff_get.2 ⟨by rw [← p2.length_eq, List.length_range], ?_⟩
      intro i h1 h2
      have h3 : i < (List.range m.filters.length).length := by rw [List.length_range]; exact h1
      have := (List.forall₂_iff_get.1 p2).2 i h3 h2
      simp only [List.get_eq_getElem, List.getElem_range] at this ⊢
      obtain ⟨f, r1, r2, _⟩ := this
      rw [List.getElem?_eq_getElem h1, Option.some.injEq] at r1
      exact r1 ▸ r2
    · intro f hf
      obtain ⟨i, h2, h4⟩ := List.getElem_of_mem hf
      have h3 : i < (List.range m.filters.length).length := by rw [p2.length_eq]; exact h2
      have := (List.forall₂_iff_get.1 p2).2 i h3 h2
      simp only [List.get_eq_getElem, List.getElem_range] at this
      obtain ⟨f0, _, _, r3⟩ := this
      rw [h4] at r3
      exact r3

section
variable {K : Type} [Field K] [LinearOrder K]

omit [Field K] [LinearOrder K] in
/-- The weights of a multi-class model. -/
theorem classWeights_roundtrip (E : SvcEnv K) (ws : Option (GoMap String K))
    (h : ∀ l, ws = some l → (l.map Prod.fst).Nodup ∧ ∀ p ∈ l, E.Keeps p.2) :
    ∃ j, classWeightsToJson E ws = Res.ok j ∧ classWeightsOfJson E none j = Res.ok ws := by
  cases ws with
  | none => exact ⟨.null, rfl, rfl⟩
  | some l =>
    obtain ⟨h1, h2⟩ := h l rfl
    refine ⟨.obj (l.map fun p => (p.1, .flt (E.num p.2))), ?_, ?_⟩
    · rw [classWeightsToJson, if_pos]
      rw [List.all_eq_true]
      exact fun p hp => (h2 p hp).2
    · have hm : mapRes (fun p : String × Json => (floatOfJson E.val p.2).map fun x => (p.1, x)) (l.map fun p => (p.1, .flt (E.num p.2))) = Res.ok l := by
        clear h h1
        induction l with
        | nil => rfl
        | cons p l ih =>
          have hp := (h2 p (by simp)).1
          rw [List.map_cons, mapRes, ih fun q hq => h2 q (by simp [hq])]
          simp [floatOfJson, hp]
      rw [classWeightsOfJson, hm]
      simp only [Res.map_ok, Option.getD_none]
      rw [foldl_set_pairs l [] h1 (by simp), List.nil_append]
end

end Golearn
