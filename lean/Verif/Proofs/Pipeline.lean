import Verif.Spec.Pipeline
import Verif.Model.Pipeline
import Verif.Proofs.Id3

/-! # Lemmas for training and evaluating on parts of one table -/

namespace Golearn

theorem visible_part {g : Grid} {n : Nat} (P : g.Presents n) (hd : g.distinct) {cls : Attr} (hc : g.allClassAttributes = [cls])
    (hin : cls ∈ g.allAttributes) {srt : List Spec → List Spec} (hsrt : ∀ l, (srt l).Perm l) {specs : List Spec}
    (hs : g.resolve srt g.allAttributes = Res.ok specs) {rows : List Nat} (hr : ∀ r ∈ rows, r < n) :
    Part g cls (Grid.viewFromVisible g rows specs) rows := by
  have S := visible_shows P hd (by rw [hc]; intro x hx; simp only [List.mem_singleton] at hx; subst hx; exact hin) hsrt hs hr
  exact ⟨S.1, S.2.1, visible_class hc ((S.2.2.1 cls).2 (by rw [hc]; simp)),
    ⟨_, _, _, _, _, rfl⟩, by simp [Grid.viewFromVisible, Grid.size, Grid.allAttributes], S.2.2.2⟩

theorem Part.reads {g : Grid} {cls : Attr} {v : Grid} {rows : List Nat} (V : Part g cls v rows) (hin : cls ∈ g.allAttributes)
    {fo : FloatOps} {n : Nat} {lab : Nat → String} (hl : ReadsAs fo g cls n lab) (hr : ∀ r ∈ rows, r < n) :
    ReadsAs fo v cls rows.length (fun i => lab (rows.getD i 0)) := by
  intro i hi
  rw [V.cells cls hin i hi]
  have : rows.getD i 0 = rows[i] := by simp [List.getD, hi]
  simp only [this]
  exact hl _ (hr _ (List.getElem_mem hi))

theorem Part.typed {g : Grid} {cls : Attr} {v : Grid} {rows : List Nat} (V : Part g cls v rows) {n : Nat} (T : g.typed n)
    (hr : ∀ r ∈ rows, r < n) : v.typed rows.length := by
  intro a ha i hi
  have hg := V.attrs.subset ha
  rw [V.cells a hg i hi]
  exact T a hg _ (hr _ (List.getElem_mem hi))

theorem Part.distinct {g : Grid} {cls : Attr} {v : Grid} {rows : List Nat} (V : Part g cls v rows) (hd : g.distinct) : v.distinct :=
  V.attrs.symm.pairwise hd fun {a b} h => by
    rw [← Bool.not_eq_true] at h ⊢
    exact fun h' => h (C28_equals_symm b a h')

theorem Part.classIn {g : Grid} {cls : Attr} {v : Grid} {rows : List Nat} (V : Part g cls v rows) (hin : cls ∈ g.allAttributes) :
    cls ∈ v.allAttributes := V.attrs.symm.subset hin

/-- One training and one evaluation. -/
theorem evaluate_with {σ μ : Type} {fo : FloatOps} {K : ClassifierOps σ} {I : σ → Prop} {g : Grid} {n : Nat} {cls : Attr}
    {ok : List Nat → List Nat → Prop} {good : List Nat → μ → Prop} {rule : μ → Nat → String → Prop}
    (A : AnswersWith fo K I g n cls ok good rule)
    (hin : cls ∈ g.allAttributes) {lab : Nat → String} (hl : ReadsAs fo g cls n lab) {s : σ} (hI : I s) {train test : Grid}
    {tr te : List Nat} (hT : Part g cls train tr) (hE : Part g cls test te) (hn : (tr ++ te).Nodup) (hr : ∀ r ∈ tr ++ te, r < n)
    (hok : ok tr te) :
    ∃ s1 s2 gen m, ∃ (c : Nat → String) (w : μ), K.fit s train = Res.ok s1 ∧ K.predict s1 test = Res.ok (s2, gen) ∧ I s2 ∧
      getConfusionMatrix fo test gen = Res.ok m ∧ Counts m (te.map fun r => (lab r, c r)) ∧
      good tr w ∧ ∀ r ∈ te, rule w r (c r) := by
  obtain ⟨s1, s2, gen, w, h1, h2, h3, h4, hw, h5⟩ := A s train test tr te hI hT hE hn hr hok
  have hte : te.Nodup := (List.nodup_append.1 hn).2.1
  have h6 : ∀ i : Nat, ∃ c, ∀ h : i < te.length, rule w te[i] c ∧ getClass fo gen i = Res.ok c := by
    intro i
    by_cases h : i < te.length
    · obtain ⟨c, hc⟩ := h5 i h
      exact ⟨c, fun _ => hc⟩
    · exact ⟨"", fun h' => absurd h' h⟩
  choose a ha using h6
  obtain ⟨m, e, hm⟩ := confLoop_spec (fo := fo) (ref := test) (gen := gen) (k := fun i => lab (te.getD i 0)) (l := a)
    (List.range te.length) (fun r hr' => ⟨getClass_ok hE.presents hE.classAttr (hE.classIn hin)
      (hE.reads hin hl fun r h => hr r (by simp [h])) (List.mem_range.1 hr'), (ha r (List.mem_range.1 hr')).2⟩) [] [] Counts.nil
  refine ⟨s1, s2, gen, m, fun r => a (te.idxOf r), w, h1, h2, h3, ?_, ?_, hw, ?_⟩
  · rw [getConfusionMatrix, hE.presents.rows, h4]
    simpa using e
  · have : (te.map fun r => (lab r, a (te.idxOf r))) = [] ++ (List.range te.length).map fun r => (lab (te.getD r 0), a r) := by
      rw [List.nil_append]
      apply List.ext_getElem
      · simp
      · intro i x1 x2
        have hi : i < te.length := by simpa using x1
        simp [List.getD, hi, hte.idxOf_getElem]
    rw [this]
    exact hm
  · intro r h
    have hi : te.idxOf r < te.length := List.idxOf_lt_length_iff.2 h
    have := (ha _ hi).1
    rwa [List.getElem_idxOf] at this

/-- The loop over the folds. -/
theorem crossLoop_with {σ μ : Type} {fo : FloatOps} {K : ClassifierOps σ} {I : σ → Prop} {g : Grid} {n : Nat} {cls : Attr}
    {ok : List Nat → List Nat → Prop} {good : List Nat → μ → Prop} {rule : μ → Nat → String → Prop}
    (A : AnswersWith fo K I g n cls ok good rule)
    (P : g.Presents n) (hd : g.distinct) (hc : g.allClassAttributes = [cls]) (hin : cls ∈ g.allAttributes) {lab : Nat → String}
    (hl : ReadsAs fo g cls n lab) {srt : List Spec → List Spec} (hsrt : ∀ l, (srt l).Perm l) {draw : Nat → Nat} {folds : Nat}
    (hdraw : ∀ i, i < n → draw i < folds) (fs : List Nat) (hfs : ∀ f ∈ fs, f < folds)
    (hok : ∀ f ∈ fs, ok (otherRows draw n folds f) (foldRows draw n f)) {s : σ} (hI : I s) :
    ∃ ms, crossLoop fo srt K g draw folds s fs = Res.ok ms ∧
      List.Forall₂ (fun f m => ∃ (c : Nat → String) (w : μ), Counts m ((foldRows draw n f).map fun r => (lab r, c r)) ∧
        good (otherRows draw n folds f) w ∧ ∀ r ∈ foldRows draw n f, rule w r (c r)) fs ms := by
  induction fs generalizing s with
  | nil => exact ⟨[], rfl, List.Forall₂.nil⟩
  | cons f fs ih =>
    obtain ⟨l, hl'⟩ := P.resolve_total (attrs := g.allAttributes) (fun a h => h)
    have hres : g.resolve srt g.allAttributes = Res.ok (srt l) := by
      unfold Grid.resolve
      rw [hl']
      rfl
    obtain ⟨hp, _⟩ := (C39_folds_partition draw n folds hdraw).2 f (hfs f (by simp))
    have hb : ∀ r ∈ otherRows draw n folds f ++ foldRows draw n f, r < n := fun r hr => List.mem_range.1 (hp.subset hr)
    obtain ⟨s1, s2, gen, m, c, w, h1, h2, h3, h4, h5, h6⟩ := evaluate_with A hin hl hI
      (visible_part P hd hc hin hsrt hres (rows := otherRows draw n folds f) fun r hr => hb r (by simp [hr]))
      (visible_part P hd hc hin hsrt hres (rows := foldRows draw n f) fun r hr => hb r (by simp [hr]))
      (hp.nodup_iff.2 List.nodup_range) hb (hok f (by simp))
    obtain ⟨ms, h7, h8⟩ := ih (fun x hx => hfs x (by simp [hx])) (fun x hx => hok x (by simp [hx])) h3
    refine ⟨m :: ms, ?_, List.Forall₂.cons ⟨c, w, h5, h6⟩ h8⟩
    simp only [crossLoop, hres, Res.bind_ok, P.rows, h1, h2, h4, h7, Res.map_ok]

/-- If training panics on the rows outside some fold, and the classifier answers for the folds before it, the loop panics. -/
theorem crossLoop_panics {σ μ : Type} {fo : FloatOps} {K : ClassifierOps σ} {I : σ → Prop} {g : Grid} {n : Nat} {cls : Attr}
    {ok : List Nat → List Nat → Prop} {good : List Nat → μ → Prop} {rule : μ → Nat → String → Prop}
    (A : AnswersWith fo K I g n cls ok good rule)
    (P : g.Presents n) (hd : g.distinct) (hc : g.allClassAttributes = [cls]) (hin : cls ∈ g.allAttributes) {lab : Nat → String}
    (hl : ReadsAs fo g cls n lab) {srt : List Spec → List Spec} (hsrt : ∀ l, (srt l).Perm l) {draw : Nat → Nat} {folds : Nat}
    (hdraw : ∀ i, i < n → draw i < folds) (pre : List Nat) (f : Nat) (post : List Nat) (hfs : ∀ x ∈ pre ++ [f], x < folds)
    (hok : ∀ x ∈ pre, ok (otherRows draw n folds x) (foldRows draw n x))
    (hbad : ∀ s train, I s → Part g cls train (otherRows draw n folds f) → K.fit s train = Res.panic) {s : σ} (hI : I s) :
    crossLoop fo srt K g draw folds s (pre ++ f :: post) = Res.panic := by
  obtain ⟨l, hl'⟩ := P.resolve_total (attrs := g.allAttributes) (fun a h => h)
  have hres : g.resolve srt g.allAttributes = Res.ok (srt l) := by
    unfold Grid.resolve
    rw [hl']
    rfl
  have hpart : ∀ x, x < folds → (otherRows draw n folds x ++ foldRows draw n x).Perm (List.range n) :=
    fun x hx => ((C39_folds_partition draw n folds hdraw).2 x hx).1
  induction pre generalizing s with
  | nil =>
    have hp := hpart f (hfs f (by simp))
    have := hbad s _ hI (visible_part P hd hc hin hsrt hres (rows := otherRows draw n folds f)
      fun r hr => List.mem_range.1 (hp.subset (by simp [hr])))
    simp only [List.nil_append, crossLoop, hres, Res.bind_ok, P.rows, this]
    rfl
  | cons x pre ih =>
    have hp := hpart x (hfs x (by simp))
    have hb : ∀ r ∈ otherRows draw n folds x ++ foldRows draw n x, r < n := fun r hr => List.mem_range.1 (hp.subset hr)
    obtain ⟨s1, s2, gen, m, c, _, h1, h2, h3, h4, _, _⟩ := evaluate_with A hin hl hI
      (visible_part P hd hc hin hsrt hres (rows := otherRows draw n folds x) fun r hr => hb r (by simp [hr]))
      (visible_part P hd hc hin hsrt hres (rows := foldRows draw n x) fun r hr => hb r (by simp [hr]))
      (hp.nodup_iff.2 List.nodup_range) hb (hok x (by simp))
    have := ih (fun y hy => hfs y (by simp at hy ⊢; tauto)) (fun y hy => hok y (by simp [hy])) h3
    simp only [List.cons_append, crossLoop, hres, Res.bind_ok, P.rows, h1, h2, h4, this]
    rfl

/-- Cross validation of a classifier that answers by a rule from a model. -/
theorem crossValidate_with {σ μ : Type} {fo : FloatOps} {K : ClassifierOps σ} {I : σ → Prop} {g : Grid} {n : Nat} {cls : Attr}
    {ok : List Nat → List Nat → Prop} {good : List Nat → μ → Prop} {rule : μ → Nat → String → Prop}
    (A : AnswersWith fo K I g n cls ok good rule)
    (P : g.Presents n) (hd : g.distinct) (hc : g.allClassAttributes = [cls]) (hin : cls ∈ g.allAttributes) {lab : Nat → String}
    (hl : ReadsAs fo g cls n lab) {srt : List Spec → List Spec} (hsrt : ∀ l, (srt l).Perm l) {draw : Nat → Nat} {folds : Nat}
    (hdraw : ∀ i, i < n → draw i < folds) (hok : ∀ f, f < folds → ok (otherRows draw n folds f) (foldRows draw n f)) {s : σ} (hI : I s) [Nonempty μ] :
    ∃ ms, ∃ (c : Nat → String) (w : Nat → μ), crossValidate fo srt K s g draw folds = Res.ok ms ∧ ms.length = folds ∧
      (∀ f (h : f < ms.length), Counts ms[f] ((foldRows draw n f).map fun r => (lab r, c r))) ∧
      (∀ f, f < folds → good (otherRows draw n folds f) (w f)) ∧ ∀ r, r < n → rule (w (draw r)) r (c r) := by
  obtain ⟨ms, h1, h2⟩ := crossLoop_with A P hd hc hin hl hsrt hdraw (List.range folds) (by simp)
    (fun f hf => hok f (List.mem_range.1 hf)) hI
  have hlen : ms.length = folds := by rw [← h2.length_eq]; simp
  have h3 : ∀ f : Nat, ∃ (c : Nat → String) (w : μ), ∀ h : f < ms.length, Counts ms[f] ((foldRows draw n f).map fun r => (lab r, c r)) ∧
      good (otherRows draw n folds f) w ∧ ∀ r ∈ foldRows draw n f, rule w r (c r) := by
    intro f
    by_cases h : f < ms.length
    · have := h2.get (i := f) (by simpa [hlen] using h) h
      simp only [List.get_eq_getElem, List.getElem_range] at this
      obtain ⟨c, w, hc⟩ := this
      exact ⟨c, w, fun _ => hc⟩
    · exact ⟨fun _ => "", Classical.arbitrary μ, fun h' => absurd h' h⟩
  choose c w hc' using h3
  refine ⟨ms, fun r => c (draw r) r, w, ?_, hlen, ?_, fun f hf => (hc' f (by omega)).2.1, ?_⟩
  · unfold crossValidate
    rw [if_neg, h1]
    rintro ⟨h, h'⟩
    rw [P.rows] at h'
    have := hdraw 0 (by omega)
    omega
  · intro f h
    have e : ((foldRows draw n f).map fun r => (lab r, c (draw r) r)) = (foldRows draw n f).map fun r => (lab r, c f r) := by
      apply List.map_congr_left
      intro r hr
      have := (List.mem_filter.1 hr).2
      rw [beq_iff_eq] at this
      rw [this]
    rw [e]
    exact (hc' f h).1
  · intro r hr
    have hf : draw r < ms.length := by rw [hlen]; exact hdraw r hr
    exact (hc' _ hf).2.2 r (List.mem_filter.2 ⟨List.mem_range.2 hr, by simp⟩)

theorem foldRows_eq (draw : Nat → Nat) (n f : Nat) : foldRows draw n f = (List.range n).filter fun r => decide (draw r = f) :=
  List.filter_congr fun r _ => by simp [Bool.beq_eq_decide_eq]

theorem otherRows_perm {draw : Nat → Nat} {n folds : Nat} (hdraw : ∀ i, i < n → draw i < folds) {f : Nat} (hf : f < folds) :
    (otherRows draw n folds f).Perm ((List.range n).filter fun q => decide (draw q ≠ f)) := by
  obtain ⟨h1, h2⟩ := (C39_folds_partition draw n folds hdraw).2 f hf
  refine (List.perm_ext_iff_of_nodup (List.nodup_append.1 (h1.nodup_iff.2 List.nodup_range)).1 (List.nodup_range.filter _)).2 ?_
  intro r
  rw [h2 r, foldRows_eq]
  simp
  tauto

/-- Splitting dense instances, training and evaluating. -/
theorem split_with {σ μ : Type} {fo : FloatOps} {K : ClassifierOps σ} {I : σ → Prop} {d : Dense} {n : Nat} {cls : Attr}
    {ok : List Nat → List Nat → Prop} {good : List Nat → μ → Prop} {rule : μ → Nat → String → Prop}
    (A : AnswersWith fo K I (.dense d) n cls ok good rule)
    (D : DenseOK n d) (hc : d.allClassAttributes = [cls]) (hin : cls ∈ d.allAttributes) {lab : Nat → String}
    (hl : ReadsAs fo (.dense d) cls n lab) {srt : List Spec → List Spec} (hsrt : ∀ l, (srt l).Perm l) (draw coin : Nat → Nat)
    (hdraw : ∀ i, draw i ≤ i) (pct : Int) {s : σ} (hI : I s) :
    ∃ train test src tr te, trainTestSplit srt draw coin pct (.dense d) = Res.ok (train, test, src) ∧
      (tr ++ te).Perm (List.range n) ∧ tr.length = (List.range n).countP (fun i => decide ((coin i : Int) > pct)) ∧
      (ok tr te → ∃ s1 s2 gen m, ∃ (c : Nat → String) (w : μ), K.fit s train = Res.ok s1 ∧ K.predict s1 test = Res.ok (s2, gen) ∧
        getConfusionMatrix fo test gen = Res.ok m ∧ Counts m (te.map fun r => (lab r, c r)) ∧
        good tr w ∧ ∀ r ∈ te, rule w r (c r)) := by
  obtain ⟨d', specs, D', hA, hC, h1, ⟨σ', hσ, hcell⟩, h2⟩ := split_parts D hc hin hsrt draw coin hdraw pct
  have part : ∀ rows : List Nat, (∀ r ∈ rows, r < n) →
      Part (.dense d) cls (Grid.viewFromVisible (.dense d') rows specs) (rows.map σ') := by
    intro rows hr
    obtain ⟨S, S2, S3⟩ := h2 rows hr
    refine ⟨by simpa using S.1, ?_, S2, ⟨_, _, _, _, _, rfl⟩, S3, ?_⟩
    · refine S.2.1.trans (List.Perm.of_eq ?_)
      show d'.allAttributes = d.allAttributes
      exact hA
    · intro a ha i h
      have h' : i < rows.length := by simpa using h
      have ha' : a ∈ (Grid.dense d').allAttributes := (show a ∈ d'.allAttributes by rw [hA]; exact ha)
      rw [S.2.2.2 a ha' i h', hcell a ha _ (hr _ (List.getElem_mem h')), List.getElem_map]
  have hb : ∀ (p : Nat → Bool), ∀ r ∈ (List.range n).filter p, r < n := fun p r hr => List.mem_range.1 (List.mem_filter.1 hr).1
  have hperm : (((List.range n).filter fun i => decide ((coin i : Int) > pct)).map σ' ++
      ((List.range n).filter fun i => !decide ((coin i : Int) > pct)).map σ').Perm (List.range n) := by
    rw [← List.map_append]
    refine ((List.filter_append_perm _ _).map _).trans ?_
    exact map_perm_range _ (Equiv.injective _) hσ
  have hlen : (((List.range n).filter fun i => decide ((coin i : Int) > pct)).map σ').length =
      (List.range n).countP (fun i => decide ((coin i : Int) > pct)) := by
    rw [List.length_map, List.countP_eq_length_filter]
  refine ⟨_, _, _, _, _, h1, hperm, hlen, fun hok => ?_⟩
  obtain ⟨s1, s2, gen, m, c, w, e1, e2, _, e4, e5, e6⟩ := evaluate_with A hin hl hI (part _ (hb fun i => decide ((coin i : Int) > pct)))
    (part _ (hb fun i => !decide ((coin i : Int) > pct))) (hperm.nodup_iff.2 List.nodup_range)
    (fun r hr => List.mem_range.1 (hperm.subset hr)) hok
  exact ⟨s1, s2, gen, m, c, w, e1, e2, e4, e5, e6⟩

/-- Answering by a rule from the training rows is answering from a model, the training rows themselves. -/
theorem AnswersBy.to {σ : Type} {fo : FloatOps} {K : ClassifierOps σ} {I : σ → Prop} {g : Grid} {n : Nat} {cls : Attr}
    {ok : List Nat → List Nat → Prop} {rule : List Nat → Nat → String → Prop} (A : AnswersBy fo K I g n cls ok rule) :
    AnswersWith fo K I g n cls ok (fun tr m => m = tr) rule := by
  intro s train test tr te hI hT hE hn hr hok
  obtain ⟨s1, s2, gen, h1, h2, h3, h4, h5⟩ := A s train test tr te hI hT hE hn hr hok
  exact ⟨s1, s2, gen, tr, h1, h2, h3, h4, rfl, h5⟩

/-- Cross validation of a classifier that answers by a rule. -/
theorem crossValidate_answers {σ : Type} {fo : FloatOps} {K : ClassifierOps σ} {I : σ → Prop} {g : Grid} {n : Nat} {cls : Attr}
    {ok : List Nat → List Nat → Prop} {rule : List Nat → Nat → String → Prop} (A : AnswersBy fo K I g n cls ok rule)
    (P : g.Presents n) (hd : g.distinct) (hc : g.allClassAttributes = [cls]) (hin : cls ∈ g.allAttributes) {lab : Nat → String}
    (hl : ReadsAs fo g cls n lab) {srt : List Spec → List Spec} (hsrt : ∀ l, (srt l).Perm l) {draw : Nat → Nat} {folds : Nat}
    (hdraw : ∀ i, i < n → draw i < folds) (hok : ∀ f, f < folds → ok (otherRows draw n folds f) (foldRows draw n f)) {s : σ} (hI : I s) :
    ∃ ms, ∃ c : Nat → String, crossValidate fo srt K s g draw folds = Res.ok ms ∧ ms.length = folds ∧
      (∀ f (h : f < ms.length), Counts ms[f] ((foldRows draw n f).map fun r => (lab r, c r))) ∧
      ∀ r, r < n → rule (otherRows draw n folds (draw r)) r (c r) := by
  obtain ⟨ms, c, w, h1, h2, h3, h4, h5⟩ := crossValidate_with A.to P hd hc hin hl hsrt hdraw hok hI
  exact ⟨ms, c, h1, h2, h3, fun r hr => h4 _ (hdraw r hr) ▸ h5 r hr⟩

/-- Splitting dense instances, training and evaluating. -/
theorem split_answers {σ : Type} {fo : FloatOps} {K : ClassifierOps σ} {I : σ → Prop} {d : Dense} {n : Nat} {cls : Attr}
    {ok : List Nat → List Nat → Prop} {rule : List Nat → Nat → String → Prop} (A : AnswersBy fo K I (.dense d) n cls ok rule)
    (D : DenseOK n d) (hc : d.allClassAttributes = [cls]) (hin : cls ∈ d.allAttributes) {lab : Nat → String}
    (hl : ReadsAs fo (.dense d) cls n lab) {srt : List Spec → List Spec} (hsrt : ∀ l, (srt l).Perm l) (draw coin : Nat → Nat)
    (hdraw : ∀ i, draw i ≤ i) (pct : Int) {s : σ} (hI : I s) :
    ∃ train test src tr te, trainTestSplit srt draw coin pct (.dense d) = Res.ok (train, test, src) ∧
      (tr ++ te).Perm (List.range n) ∧ tr.length = (List.range n).countP (fun i => decide ((coin i : Int) > pct)) ∧
      (ok tr te → ∃ s1 s2 gen m, ∃ c : Nat → String, K.fit s train = Res.ok s1 ∧ K.predict s1 test = Res.ok (s2, gen) ∧
        getConfusionMatrix fo test gen = Res.ok m ∧ Counts m (te.map fun r => (lab r, c r)) ∧ ∀ r ∈ te, rule tr r (c r)) := by
  obtain ⟨train, test, src, tr, te, h1, h2, h3, h4⟩ := split_with A.to D hc hin hl hsrt draw coin hdraw pct hI
  refine ⟨train, test, src, tr, te, h1, h2, h3, fun hok => ?_⟩
  obtain ⟨s1, s2, gen, m, c, w, e1, e2, e3, e4, rfl, e6⟩ := h4 hok
  exact ⟨s1, s2, gen, m, c, e1, e2, e3, e4, e6⟩

/-! ## The k nearest neighbours -/

section
variable {R : Type} [Field R] [LinearOrder R]

theorem Part.knnData {g : Grid} {n : Nat} {cls : Attr} (T : g.typed n) (hin : cls ∈ g.allAttributes) {fo : FloatOps}
    {lab : Nat → String} (hl : ReadsAs fo g cls n lab) {train test : Grid} {tr te : List Nat} (hT : Part g cls train tr)
    (hE : Part g cls test te) (hr : ∀ r ∈ tr ++ te, r < n) :
    KnnData fo train test tr.length te.length (fun i => lab (tr.getD i 0)) cls where
  trainRows := hT.presents
  whatRows := hE.presents
  trainTyped := hT.typed T fun r h => hr r (by simp [h])
  whatTyped := hE.typed T fun r h => hr r (by simp [h])
  same := (C26_check_compatible _ _ _).2 ⟨rfl, by rw [hT.attrs.length_eq, hE.attrs.length_eq],
    fun a ha => ⟨a, hT.attrs.symm.subset (hE.attrs.subset ha), C28_equals_refl a⟩⟩
  finds := fun a ha => ⟨a, hT.attrs.symm.subset (hE.attrs.subset ha), C28_equals_refl a, rfl⟩
  whatClass := hE.classAttr
  whatClassIn := hE.classIn hin
  label := ⟨cls, hT.classAttr, hT.classIn hin, hT.reads hin hl fun r h => hr r (by simp [h])⟩

theorem Part.point {g : Grid} {cls : Attr} {v : Grid} {rows : List Nat} (V : Part g cls v rows) {val : U64 → R} {fs : List Attr}
    (hfs : ∀ a ∈ fs, a ∈ g.allAttributes) {i : Nat} (hi : i < rows.length) : v.point val fs i = g.point val fs rows[i] := by
  unfold Grid.point Grid.number
  exact List.map_congr_left fun a ha => by rw [V.cells a (hfs a ha) i hi]
end

end Golearn
