import Verif.Proofs.SharedAttr
import Verif.Model.Tree
import Verif.Model.NaiveBayes
import Verif.Model.SaveKnn
import Verif.Model.History

/-! # C146: attributes are shared between tables -/

namespace Golearn

/-- Every grid shows the attributes as they are at present, also as classes. -/
theorem C146_shows (g : Grid) (hg : g.unfiltered) (o : Objs) :
    (g.now o).allAttributes = g.allAttributes.map (Attr.now o) ∧
    (g.now o).allClassAttributes = g.allClassAttributes.map (Attr.now o) := by
  have hf : ∀ l : GoMap Attr Bool, ((l.map fun p => (p.1.now o, p.2)).filter fun p => p.2).map Prod.fst =
      ((l.filter fun p => p.2).map Prod.fst).map (Attr.now o) := by
    intro l
    induction l with
    | nil => rfl
    | cons x l ih =>
      obtain ⟨a, b⟩ := x
      cases b
      · simpa using ih
      · simpa using ih
  refine ⟨?_, ?_⟩
  · induction g with
    | dense d => simp [Grid.now, Grid.allAttributes, Dense.allAttributes, Dense.now, List.flatMap_map, List.map_flatMap]
    | view src as rows cls mask ih =>
      cases as with
      | none => exact ih hg
      | some ss => simp [Grid.now, Grid.allAttributes, Spec.now]
    | filt => exact hg.elim
  · cases g with
    | dense d =>
      show ((d.classAttrs.map fun p => (p.1.now o, p.2)).filter fun p => p.2).map (fun p => p.1.attr) =
        ((d.classAttrs.filter fun p => p.2).map fun p => p.1.attr).map (Attr.now o)
      induction d.classAttrs with
      | nil => rfl
      | cons x l ih =>
        obtain ⟨a, b⟩ := x
        cases b
        · simpa using ih
        · simpa [Spec.now] using ih
    | view src as rows cls mask => exact hf cls
    | filt => exact hg.elim

/-- A text that is new to an attribute is added at the end of its values, for every table with that attribute. Whatever texts are
written through whatever tables: a grid whose attributes have different names keeps its size, its cells and the text of every cell that
has one. -/
theorem C146_texts_partial (fo : FloatOps) (g : Grid) (hg : g.unfiltered) (o : Objs) (hn : g.namesApart o) (l : List (Nat × String)) :
    (∀ p, (o p).grows (o.interns l p)) ∧ StaysAsItWas fo g o (o.interns l) :=
  ⟨interns_grow l o, stays_of_grows fo g hg o _ hn (interns_grow l o)⟩

/-! ## Two attributes with the same name -/

namespace C146

/-- Two categorical attributes with the same name, one with a value more. -/
def objs0 : Objs := fun p => if p = 0 then .cat "c" ["a"] else .cat "c" ["a", "b"]
def table0 : Grid :=
  match run 4096 [.add ⟨0, .cat "c" ["a"]⟩, .add ⟨1, .cat "c" ["a", "b"]⟩, .extend 1, .set 1 0 (packU64 1)] with
  | .ok st => .dense st.d
  | _ => .dense Dense.new

end C146

open C146 in
/-- Without different names it is false: once the first attribute has the value b as well, the two attributes are equal, and the cells of
the second one are those of the first. -/
theorem C146_same_names : ¬ TextsDoNotInterfere := by
  intro H
  have h := (H ⟨fun _ _ => "", fun _ _ => false⟩ table0 objs0 [(0, "b")] trivial (by unfold Grid.distinct; decide +kernel)).2 ⟨1, .cat "c" ["a", "b"]⟩
    (by decide +kernel) 0
  exact absurd h.1 (by decide +kernel)

/-! ## Predictions -/

/-- Writing labels into the table of predictions for data with one categorical class. The data keeps its size, its cells and the texts of
its cells. Its class has the labels that were new as additional values, each once, in the order in which they were written; no other
attribute changes. -/
theorem C146_predict_partial (fo : FloatOps) (parse : String → Option U64) (pg : Nat) (g : Grid) (hg : g.unfiltered) (o : Objs) (hn : g.namesApart o)
    (p : Nat) (nm : String) (vs : List String) (hp : o p = .cat nm vs) (hc : (g.now o).allClassAttributes = [⟨p, .cat nm vs⟩])
    (ws : List (Nat × String)) (hr : ∀ w ∈ ws, w.1 < (g.now o).size.2) :
    ∃ d0 d, generatePredictionVector pg (g.now o) = Res.ok d0 ∧ writeLabels fo parse d0 ws = Res.ok d ∧
      o.written d p = .cat nm (vs ++ newTexts vs (ws.map Prod.snd)) ∧ (∀ q, q ≠ p → o.written d q = o q) ∧
      StaysAsItWas fo g o (o.written d) := by
  obtain ⟨d0, e0, P0, _⟩ := generate_spec pg (n := (g.now o).size.2) rfl hc
  obtain ⟨d, e, P⟩ := writeLabels_values fo parse ws P0 hr
  have hA : d.allAttributes = [⟨p, .cat nm (vs ++ newTexts vs (ws.map Prod.snd))⟩] := by
    obtain ⟨gr, h1, _, h2, _⟩ := P.group
    simp [Dense.allAttributes, h1, h2]
  have hw : ∀ q, o.written d q = if q = p then .cat nm (vs ++ newTexts vs (ws.map Prod.snd)) else o q := by
    intro q
    unfold Objs.written
    rw [hA]
    by_cases hq : q = p
    · subst hq; simp
    · have : (p == q) = false := by simpa using fun e => hq e.symm
      simp [this, hq]
  refine ⟨d0, d, e0, e, by rw [hw, if_pos rfl], fun q hq => by rw [hw, if_neg hq], stays_of_grows fo g hg o _ hn fun q => ?_⟩
  rw [hw]
  by_cases hq : q = p
  · rw [if_pos hq, hq, hp]
    exact ⟨rfl, List.prefix_append _ _⟩
  · rw [if_neg hq]
    exact AttrBody.grows_refl _

private theorem newTexts_known (vs ts : List String) (h : ∀ t ∈ ts, t ∈ vs) : newTexts vs ts = [] := by
  induction ts with
  | nil => rfl
  | cons t ts ih => rw [newTexts, if_pos (h t (by simp)), ih fun x hx => h x (by simp [hx])]

private theorem newTexts_new (vs ts : List String) : (newTexts vs ts).Nodup ∧ ∀ t ∈ newTexts vs ts, t ∉ vs := by
  induction ts generalizing vs with
  | nil => exact ⟨List.nodup_nil, by simp [newTexts]⟩
  | cons t ts ih =>
    rw [newTexts]
    split
    · exact ih vs
    · next ht =>
      obtain ⟨h1, h2⟩ := ih (vs ++ [t])
      refine ⟨List.nodup_cons.2 ⟨fun hm => h2 t hm (by simp), h1⟩, fun x hx => ?_⟩
      rcases List.mem_cons.1 hx with rfl | hx
      · exact ht
      · exact fun hv => h2 x hx (by simp [hv])

/-- If the class of the data has all the labels already, nothing at all changes. -/
theorem C146_predict_known (fo : FloatOps) (parse : String → Option U64) (pg : Nat) (g : Grid) (hg : g.unfiltered) (o : Objs) (hn : g.namesApart o)
    (p : Nat) (nm : String) (vs : List String) (hp : o p = .cat nm vs) (hc : (g.now o).allClassAttributes = [⟨p, .cat nm vs⟩])
    (ws : List (Nat × String)) (hr : ∀ w ∈ ws, w.1 < (g.now o).size.2) (hk : ∀ w ∈ ws, w.2 ∈ vs) :
    ∃ d0 d, generatePredictionVector pg (g.now o) = Res.ok d0 ∧ writeLabels fo parse d0 ws = Res.ok d ∧ o.written d = o := by
  obtain ⟨d0, d, e0, e, h1, h2, _⟩ := C146_predict_partial fo parse pg g hg o hn p nm vs hp hc ws hr
  refine ⟨d0, d, e0, e, funext fun q => ?_⟩
  by_cases hq : q = p
  · rw [hq, h1, newTexts_known vs _ (by
      intro t ht
      obtain ⟨w, hw, rfl⟩ := List.mem_map.1 ht
      exact hk w hw), List.append_nil, hp]
  · exact h2 q hq

namespace C146

/-- Data to predict whose class has the value b only. -/
def objs1 : Objs := fun p => if p = 0 then .float "x" 2 else .cat "c" ["b"]
def table1 : Grid :=
  match run 4096 [.add ⟨0, .float "x" 2⟩, .add ⟨1, .cat "c" ["b"]⟩, .addClass ⟨1, .cat "c" ["b"]⟩, .extend 2, .set 0 1 (packU64 3)] with
  | .ok st => .dense st.d
  | _ => .dense Dense.new
def fo1 : FloatOps := ⟨fun _ _ => "", fun _ _ => false⟩

end C146

open C146 in
/-- The hypotheses of `C146_texts_partial`, `C146_predict_partial` and `C146_data_partial`. -/
example : table1.unfiltered ∧ table1.namesApart objs1 ∧ objs1 1 = .cat "c" ["b"] ∧
    (table1.now objs1).allClassAttributes = [⟨1, .cat "c" ["b"]⟩] ∧ (table1.now objs1).size = (2, 2) ∧
    newTexts ["b"] ["a", "b", "a", "c"] = ["a", "c"] := by
  refine ⟨trivial, by unfold Grid.namesApart; decide +kernel, ?_⟩
  decide +kernel

open C146 in
/-- Predicting changes the data: a class the data has no value for becomes a value of its class attribute. -/
theorem C146_predict_changes : ¬ PredictingLeavesData fo1 (fun _ => none) 4096 := by
  intro H
  have h : ∃ d0 d, generatePredictionVector 4096 (table1.now objs1) = Res.ok d0 ∧ setClass fo1 (fun _ => none) d0 0 "a" = Res.ok d ∧
      (table1.now (objs1.written d)).allClassAttributes = [⟨1, .cat "c" ["b", "a"]⟩] ∧
      (table1.now objs1).allClassAttributes = [⟨1, .cat "c" ["b"]⟩] := by
    refine ⟨_, _, rfl, rfl, ?_⟩
    decide +kernel
  obtain ⟨d0, d, e0, e, k1, k2⟩ := h
  have := H table1 objs1 d0 d 0 "a" trivial (by unfold Grid.namesApart; decide +kernel) e0 e
  rw [this, k2] at k1
  revert k1
  decide

open C146 in
/-- After that the attribute of the class, as it was before, is no longer found in the data, and the data is not compatible with data that
it was compatible with. -/
theorem C146_no_longer_equal : ∃ d0 d, generatePredictionVector 4096 (table1.now objs1) = Res.ok d0 ∧
    setClass fo1 (fun _ => none) d0 0 "a" = Res.ok d ∧
    ((table1.now objs1).getAttribute ⟨7, .cat "c" ["b"]⟩).isOk = true ∧
    (table1.now (objs1.written d)).getAttribute ⟨7, .cat "c" ["b"]⟩ = Res.err := by
  refine ⟨_, _, rfl, rfl, ?_⟩
  decide +kernel

/-! ## The classifiers write labels -/

/-- `d` is the table of predictions for `what` with labels written to some of its rows, in some order. -/
def LabelsWritten (fo : FloatOps) (parse : String → Option U64) (pg : Nat) (what : Grid) (d : Dense) : Prop :=
  ∃ d0 ws, generatePredictionVector pg what = Res.ok d0 ∧ writeLabels fo parse d0 ws = Res.ok d ∧ ∀ w ∈ ws, w.1 < what.size.2

/-- So what a classifier that writes labels does to the data is what `C146_predict_partial` says. -/
theorem C146_data_partial (fo : FloatOps) (parse : String → Option U64) (pg : Nat) (g : Grid) (hg : g.unfiltered) (o : Objs) (hn : g.namesApart o)
    (p : Nat) (nm : String) (vs : List String) (hp : o p = .cat nm vs) (hc : (g.now o).allClassAttributes = [⟨p, .cat nm vs⟩])
    (d : Dense) (h : LabelsWritten fo parse pg (g.now o) d) :
    (∃ new, new.Nodup ∧ (∀ t ∈ new, t ∉ vs) ∧ o.written d p = .cat nm (vs ++ new)) ∧ (∀ q, q ≠ p → o.written d q = o q) ∧
      StaysAsItWas fo g o (o.written d) := by
  obtain ⟨d0, ws, e0, e, hr⟩ := h
  obtain ⟨d0', d', e0', e', h1, h2, h3⟩ := C146_predict_partial fo parse pg g hg o hn p nm vs hp hc ws hr
  rw [e0'] at e0; cases e0
  rw [e'] at e; cases e
  exact ⟨⟨_, (newTexts_new vs _).1, (newTexts_new vs _).2, h1⟩, h2, h3⟩

private theorem mapOver_keeps {σ : Type} {vals : Nat → Res (List Bytes)} {cb : σ → List Bytes → Nat → Res (σ × Ctl)} (I : σ → Prop)
    (order : List Nat) (h : ∀ s v r p, r ∈ order → I s → cb s v r = Res.ok p → I p.1) :
    ∀ (l : List Nat), (∀ r ∈ l, r ∈ order) → ∀ (s : σ) q, I s → mapOver vals cb s l = Res.ok q → I q.1 := by
  intro l
  induction l with
  | nil => intro _ s q hs e; cases e; exact hs
  | cons r l ih =>
    intro hl s q hs e
    rw [mapOver] at e
    obtain ⟨v, _, e⟩ := Res.bind_eq_ok.1 e
    obtain ⟨p, hp, e⟩ := Res.bind_eq_ok.1 e
    have hI := h s v r p (hl r (by simp)) hs hp
    split at e
    · exact ih (fun x hx => hl x (by simp [hx])) _ _ hI e
    · cases e; exact hI
    · cases e; exact hI

private theorem keepState_keeps {σ : Type} {g : Grid} {as : List Spec} {order : List Nat} {cb : σ → List Bytes → Nat → Res (σ × Ctl)}
    {s q : σ} (I : σ → Prop) (hs : I s) (h : ∀ s v r p, r ∈ order → I s → cb s v r = Res.ok p → I p.1)
    (e : keepState (g.mapOverRows as order cb s) s = Res.ok q) : I q := by
  unfold keepState at e
  split at e
  · next p hp =>
    cases e
    unfold Grid.mapOverRows at hp
    obtain ⟨_, _, hp⟩ := Res.bind_eq_ok.1 hp
    exact mapOver_keeps I order h order (fun r hr => hr) s p hs hp
  · cases e; exact hs
  · cases e

/-- One more label. -/
private theorem written_step {fo : FloatOps} {parse : String → Option U64} {pg : Nat} {what : Grid} {d d' : Dense}
    (h : LabelsWritten fo parse pg what d) {r : Nat} (hr : r < what.size.2) {c : String} (e : setClass fo parse d r c = Res.ok d') :
    LabelsWritten fo parse pg what d' := by
  obtain ⟨d0, ws, h0, h1, h2⟩ := h
  refine ⟨d0, ws ++ [(r, c)], h0, by rw [writeLabels_append, h1]; exact e, ?_⟩
  intro w hw
  rcases List.mem_append.1 hw with hw | hw
  · exact h2 w hw
  · rw [List.mem_singleton.1 hw]; exact hr

private theorem written_none {fo : FloatOps} {parse : String → Option U64} {pg : Nat} {what : Grid} {d : Dense}
    (h : generatePredictionVector pg what = Res.ok d) : LabelsWritten fo parse pg what d :=
  ⟨d, [], h, rfl, by simp⟩

/-- Decision trees. -/
theorem C146_tree (e : PredEnv) (t : Tree) (what : Grid) (hord : ∀ r ∈ e.order what, r < what.size.2) (d : Dense)
    (h : treePredict e t what = Res.ok d) : LabelsWritten e.fo e.parse e.pg what d := by
  unfold treePredict at h
  obtain ⟨d0, h0, h⟩ := Res.bind_eq_ok.1 h
  obtain ⟨as, _, h⟩ := Res.bind_eq_ok.1 h
  refine keepState_keeps (LabelsWritten e.fo e.parse e.pg what) (written_none h0) ?_ h
  intro s v r p hr hs hp
  obtain ⟨c, _, hp⟩ := Res.bind_eq_ok.1 hp
  obtain ⟨d', hd, rfl⟩ := Res.map_eq_ok.1 hp
  exact written_step hs (hord r hr) hd

open C146 in
/-- A tree that says a for every row: the class of the data gets the value a. -/
example :
    let e : PredEnv := ⟨fo1, fun _ => none, 4096, id, id, fun g => List.range g.size.2, fun _ => id⟩
    (∀ r ∈ e.order (table1.now objs1), r < (table1.now objs1).size.2) ∧
    ∃ d, treePredict e (.leaf [("a", 1)] "a") (table1.now objs1) = Res.ok d ∧ objs1.written d 1 = .cat "c" ["b", "a"] := by
  refine ⟨by decide +kernel, ?_⟩
  refine ⟨_, rfl, ?_⟩
  decide +kernel

section
variable {R : Type} [Field R] [LinearOrder R]

/-- Naive Bayes classifiers. -/
theorem C146_naive_bayes (log : R → R) (low : R) (fo : FloatOps) (parse : String → Option U64) (pg : Nat) (srt : List Spec → List Spec)
    (order : List Nat) (ordC : Nat → List String → List String) (nb : NB R) (what : Grid) (hord : ∀ r ∈ order, r < what.size.2) (d : Dense)
    (h : nbPredict log low fo parse pg srt order ordC nb what = Res.ok d) : LabelsWritten fo parse pg what d := by
  unfold nbPredict at h
  obtain ⟨d0, h0, h⟩ := Res.bind_eq_ok.1 h
  obtain ⟨as, _, h⟩ := Res.bind_eq_ok.1 h
  refine keepState_keeps (LabelsWritten fo parse pg what) (written_none h0) ?_ h
  intro s v r p hr hs hp
  obtain ⟨c, _, hp⟩ := Res.bind_eq_ok.1 hp
  obtain ⟨d', hd, rfl⟩ := Res.map_eq_ok.1 hp
  exact written_step hs (hord r hr) hd

private theorem callback_keeps {σ τ : Type} {fo : FloatOps} {parse : String → Option U64} {val : U64 → R}
    {search : Nat → List R → σ → Res (σ × List (Nat × R))} {votes : Nat → List (Nat × R) → τ → Res (τ × String)} {pg : Nat}
    {what : Grid} (s : KnnState σ τ) (v : List Bytes) (r : Nat) (p : KnnState σ τ × Ctl) (hr : r < what.size.2)
    (hs : LabelsWritten fo parse pg what s.ret) (hp : knnCallback fo parse val search votes s v r = Res.ok p) :
    LabelsWritten fo parse pg what p.1.ret := by
  unfold knnCallback at hp
  obtain ⟨x, _, hp⟩ := Res.bind_eq_ok.1 hp
  split at hp
  · obtain ⟨q, _, hp⟩ := Res.bind_eq_ok.1 hp
    obtain ⟨d', hd, rfl⟩ := Res.map_eq_ok.1 hp
    exact written_step hs hr hd
  · cases hp; exact hs
  · cases hp

private theorem linear_writes {τ : Type} (e : KnnEnv R) (k : Nat) (train what : Grid) (hord : ∀ r ∈ e.orderW, r < what.size.2)
    (votes : Nat → List (Nat × R) → τ → Res (τ × String))
    (v0 : τ) (d : Dense) (h : knnPredictLinear e k train what votes v0 = Res.ok d) : LabelsWritten e.fo e.parse e.pg what d := by
  unfold knnPredictLinear at h
  split at h
  · cases h
  · obtain ⟨num, _, h⟩ := Res.bind_eq_ok.1 h
    obtain ⟨d0, h0, h⟩ := Res.bind_eq_ok.1 h
    obtain ⟨ws, _, h⟩ := Res.bind_eq_ok.1 h
    obtain ⟨ts, _, h⟩ := Res.bind_eq_ok.1 h
    obtain ⟨st, hst, rfl⟩ := Res.map_eq_ok.1 h
    exact keepState_keeps (fun s => LabelsWritten e.fo e.parse e.pg what s.ret) (written_none h0)
      (fun s v r p hr => callback_keeps s v r p (hord r hr)) hst

private theorem tree_writes {τ : Type} (e : KnnEnv R) (srtKd : List (List R) → Nat → List Nat → List Nat) (orderB : List Nat) (k : Nat)
    (train what : Grid) (hord : ∀ r ∈ e.orderW, r < what.size.2) (votes : Nat → List (Nat × R) → τ → Res (τ × String))
    (v0 : τ) (d : Dense) (h : knnPredictTree e srtKd orderB k train what votes v0 = Res.ok d) :
    LabelsWritten e.fo e.parse e.pg what d := by
  unfold knnPredictTree at h
  split at h
  · cases h
  · obtain ⟨num, _, h⟩ := Res.bind_eq_ok.1 h
    obtain ⟨d0, h0, h⟩ := Res.bind_eq_ok.1 h
    obtain ⟨ws, _, h⟩ := Res.bind_eq_ok.1 h
    obtain ⟨ts, _, h⟩ := Res.bind_eq_ok.1 h
    obtain ⟨pts, _, h⟩ := Res.bind_eq_ok.1 h
    obtain ⟨root, _, h⟩ := Res.bind_eq_ok.1 h
    obtain ⟨st, hst, rfl⟩ := Res.map_eq_ok.1 h
    exact keepState_keeps (fun s => LabelsWritten e.fo e.parse e.pg what s.ret) (written_none h0)
      (fun s v r p hr => callback_keeps s v r p (hord r hr)) hst

private theorem general_writes (e : KnnEnv R) (c : KnnChoices R) (m : KnnModel) (what : Grid) (hord : ∀ r ∈ e.orderW, r < what.size.2)
    (d : Dense) (h : knnGeneral e c m what = Res.ok d) : LabelsWritten e.fo e.parse e.pg what d := by
  unfold knnGeneral at h
  split at h
  · split at h
    · exact linear_writes e _ _ _ hord _ _ _ h
    · exact linear_writes e _ _ _ hord _ _ _ h
  · split at h
    · exact tree_writes e _ _ _ _ _ hord _ _ _ h
    · exact tree_writes e _ _ _ _ _ hord _ _ _ h

private theorem loop_writes (fo : FloatOps) (parse : String → Option U64) (pg : Nat) (val : U64 → R)
    (srtD : List (R × Nat) → List (R × Nat)) (ord : Nat → List String → List String) (k : Nat) (tr pr : Dense)
    (names : Nat → List String) (d : Dense) :
    ∀ (rows : List Nat), (∀ r ∈ rows, r < pr.maxRow) → ∀ (ret : Dense) (vec : List (R × Nat)) (m : GoMap String Nat),
      LabelsWritten fo parse pg (.dense pr) ret → optLoop fo parse val srtD ord k tr pr names rows ret vec m = Res.ok d →
      LabelsWritten fo parse pg (.dense pr) d := by
  intro rows
  induction rows with
  | nil => intro _ ret vec m h e; cases e; exact h
  | cons r rows ih =>
    intro hl ret vec m h e
    rw [optLoop] at e
    split at e
    · cases e
    · obtain ⟨q, _, e⟩ := Res.bind_eq_ok.1 e
      obtain ⟨d', hd, e⟩ := Res.bind_eq_ok.1 e
      exact ih (fun x hx => hl x (by simp [hx])) _ _ _ (written_step h (hl r (by simp)) hd) e

/-- Nearest neighbours classifiers, with any settings. -/
theorem C146_knn (M : KnnMetrics R) (e : KnnEnv R) (c : KnnChoices R) (m : KnnModel) (what : Grid) (hord : ∀ r ∈ e.orderW, r < what.size.2)
    (d : Dense) (h : knnPredict M e c m what = Res.ok d) : LabelsWritten e.fo e.parse e.pg what d := by
  unfold knnPredict at h
  split at h
  · cases h
  · next dist _ =>
    split at h
    · cases h
    · split at h
      · cases h
      · obtain ⟨x, hx, h⟩ := Res.bind_eq_ok.1 h
        split at h
        · next pr tr =>
          have hw : what = .dense pr := by
            unfold knnOptimised at hx
            split at hx
            · split at hx
              · obtain ⟨b, _, hb⟩ := Res.map_eq_ok.1 hx
                split at hb
                · cases hb; rfl
                · cases hb
              · cases hx
            · cases hx
          rw [hw]
          unfold optimisedPredict at h
          obtain ⟨d0, h0, h⟩ := Res.bind_eq_ok.1 h
          split at h
          · cases h
          · exact loop_writes e.fo e.parse e.pg e.val _ _ _ _ _ _ d _ (fun r hr => List.mem_range.1 hr) _ _ _ (written_none h0) h
        · exact general_writes { e with dist := dist } c m what hord d h

end

end Golearn
