import Verif.Spec.Refit
import Verif.Proofs.NaiveBayes
import Verif.Proofs.Perceptron
import Verif.Proofs.Discretise
import Verif.Proofs.ConvertNew

/-! # Lemmas about fitting again -/

namespace Golearn

/-- What has to be shown for one call of `Fit`, if a call keeps the settings. -/
theorem forgets_of {σ : Type} {ops : ClassifierOps σ} {same : σ → σ → Prop}
    (hkeep : ∀ m m' fresh g, same m fresh → ops.fit m g = Res.ok m' → same m' fresh)
    (hstep : ∀ m fresh g m', same m fresh → ops.fit m g = Res.ok m' →
      ∃ m'', ops.fit fresh g = Res.ok m'' ∧ ∀ what, (ops.predict m' what).map Prod.snd = (ops.predict m'' what).map Prod.snd) :
    Forgets ops same := by
  have key : ∀ (earlier : List Grid) m fresh m1, same m fresh → ops.fits m earlier = Res.ok m1 → same m1 fresh := by
    intro earlier
    induction earlier with
    | nil =>
      intro m fresh m1 hs h
      simp only [ClassifierOps.fits, Res.ok.injEq] at h
      exact h ▸ hs
    | cons g gs ih =>
      intro m fresh m1 hs h
      rw [ClassifierOps.fits] at h
      cases hf : ops.fit m g with
      | ok m' => rw [hf] at h; exact ih m' fresh m1 (hkeep m m' fresh g hs hf) h
      | err => rw [hf] at h; exact ih m fresh m1 hs h
      | panic => rw [hf] at h; cases h
  intro m fresh hs earlier g m1 m2 h1 h2
  exact hstep m1 fresh g m2 (key earlier m fresh m1 hs h1) h2

/-! ## Naive Bayes -/

section
variable {K : Type} [Field K] [LinearOrder K]

/-- The conditional probabilities of the classes of the table do not depend on what was there before, and the others are kept. -/
theorem nbConds_old (f : Nat) (s : NBCounts) (cs : List String) (m m' r : GoMap String (List K)) (h : nbConds f s cs m = Res.ok r) :
    (∃ r', nbConds f s cs m' = Res.ok r' ∧ ∀ c, m.get? c = m'.get? c ∨ c ∈ cs → r.get? c = r'.get? c) ∧
      ∀ c, c ∉ cs → r.get? c = m.get? c := by
  induction cs generalizing m m' with
  | nil =>
    simp only [nbConds, Res.ok.injEq] at h
    subst h
    exact ⟨⟨m', rfl, fun c hc => by simpa using hc⟩, fun _ _ => rfl⟩
  | cons x xs ih =>
    simp only [nbConds] at h
    obtain ⟨l, h1, h2⟩ := Res.bind_eq_ok.1 h
    obtain ⟨⟨r', i1, i2⟩, i3⟩ := ih (m.set x l) (m'.set x l) h2
    refine ⟨⟨r', by simp only [nbConds, h1, Res.bind_ok, i1], ?_⟩, ?_⟩
    · intro c hc
      apply i2
      rw [GoMap.get?_set, GoMap.get?_set]
      by_cases hx : x = c
      · simp [hx]
      · simp only [hx, if_false]
        rcases hc with hc | hc
        · exact Or.inl hc
        · exact Or.inr ((List.mem_cons.1 hc).resolve_left (Ne.symm hx))
    · intro c hc
      simp only [List.mem_cons, not_or] at hc
      rw [i3 c hc.2, GoMap.get?_set, if_neg (Ne.symm hc.1)]

/-- Two classifiers that predict alike: they agree but for the conditional probabilities of classes they have not counted. -/
structure NB.Alike (nb nb' : NB K) : Prop where
  inst : nb.inst = nb'.inst
  rows : nb.rows = nb'.rows
  features : nb.features = nb'.features
  attrs : nb.attrs = nb'.attrs
  cond : ∀ c ∈ nb.inst.map Prod.fst, nb.condProb.get? c = nb'.condProb.get? c

theorem nbBest_alike {nb nb' : NB K} (A : nb.Alike nb') (log : K → K) (vector : List Bytes) (cs : List String)
    (hcs : ∀ c ∈ cs, c ∈ nb.inst.map Prod.fst) (best : String × K) : nbBest log nb vector cs best = nbBest log nb' vector cs best := by
  induction cs generalizing best with
  | nil => rfl
  | cons c cs ih =>
    have h1 : nbScore log nb vector c = nbScore log nb' vector c := by
      simp only [nbScore, A.inst, A.rows, A.cond c (hcs c List.mem_cons_self)]
    simp only [nbBest, h1]
    congr 1
    funext s
    exact ih (fun d hd => hcs d (List.mem_cons_of_mem _ hd)) _

theorem nbPredict_alike {nb nb' : NB K} (A : nb.Alike nb') (log : K → K) (low : K) (fo : FloatOps) (parse : String → Option U64)
    (pg : Nat) (srt : List Spec → List Spec) (order : List Nat) (ordC : Nat → List String → List String)
    (ho : ∀ r l, (ordC r l).Perm l) (what : Grid) :
    nbPredict log low fo parse pg srt order ordC nb what = nbPredict log low fo parse pg srt order ordC nb' what := by
  have h1 : ∀ r vals, nbPredictOne log low (ordC r) nb vals = nbPredictOne log low (ordC r) nb' vals := by
    intro r vals
    have := nbBest_alike A log vals (ordC r (nb.inst.map Prod.fst)) (fun c hc => (ho r _).mem_iff.1 hc) ("", low)
    rw [A.inst] at this
    simp only [nbPredictOne, A.features, A.inst, this]
  simp only [nbPredict, A.attrs, h1]

/-- Fitting does not depend on what was there before, but for classes that are not in the table. -/
theorem nbFit_old {fo : FloatOps} {srt : List Spec → List Spec} {order : List Nat} {ordC : List String → List String}
    (ho : ∀ l, (ordC l).Perm l) {old : GoMap String (List K)} {X : Grid} {nb : NB K} (h : nbFit fo srt order ordC old X = Res.ok nb)
    (old' : GoMap String (List K)) :
    (∃ nb', nbFit fo srt order ordC old' X = Res.ok nb' ∧ nb.Alike nb') ∧
      ∀ c, c ∉ nb.inst.map Prod.fst → nb.condProb.get? c = old.get? c := by
  unfold nbFit at h ⊢
  simp only at h ⊢
  split at h
  · cases h
  rename_i h1
  rw [if_neg h1]
  obtain ⟨sp, h2, h⟩ := Res.bind_eq_ok.1 h
  rw [h2, Res.bind_ok]
  split at h
  · cases h
  rename_i h3
  rw [if_neg h3]
  obtain ⟨s, h4, h⟩ := Res.bind_eq_ok.1 h
  rw [h4, Res.bind_ok]
  obtain ⟨cp, h5, h⟩ := Res.map_eq_ok.1 h
  subst h
  obtain ⟨⟨r', i1, i2⟩, i3⟩ := nbConds_old _ s _ old old' cp h5
  refine ⟨⟨⟨r', s.inst, X.size.2, _, _⟩, by rw [i1]; rfl, rfl, rfl, rfl, rfl, ?_⟩, ?_⟩
  · intro c hc
    exact i2 c (Or.inr ((ho _).mem_iff.2 hc))
  · intro c hc
    exact i3 c fun hm => hc ((ho _).mem_iff.1 hm)

/-! ## The perceptron -/

/-- The weights the last row leaves, averaged once: `s` is the sign of the correction. -/
def lastWeights (p : Perceptron K) (s : K) (x : List K) (count : K) (edges : List K) : List K :=
  percAverages count edges ((x.take p.weights.length).map fun v => p.learningRate * s * v)

theorem percLearn_spec {p q : Perceptron K} {x : String × List K} (h : p.learn x = Res.ok q) :
    q.count = p.count + 1 ∧ q.edges = p.edges.map (· + 1) ∧ q.weights.length = p.weights.length ∧ q.learningRate = p.learningRate ∧
      q.threshold = p.threshold ∧ q.bias = p.bias ∧
      ∃ s : K, (s = 1 ∨ s = -1) ∧ q.weights = lastWeights p s x.2 p.count (p.edges.map (· + 1)) := by
  unfold Perceptron.learn at h
  obtain ⟨resp, h1, h2⟩ := Res.bind_eq_ok.1 h
  have hr : resp = 1 ∨ resp = -1 := by
    unfold Perceptron.score at h1
    obtain ⟨s, _, h3⟩ := Res.map_eq_ok.1 h1
    rw [← h3]
    split
    · exact Or.inl rfl
    · exact Or.inr rfl
  have hne : (0 : K) ≠ resp := by
    rcases hr with rfl | rfl
    · exact zero_ne_one
    · intro e
      have : (1 : K) = 0 := by
        have := congrArg (fun t => -t) e
        simpa using this.symm
      exact one_ne_zero this
  rw [if_pos hne] at h2
  obtain ⟨q', h3, rfl⟩ := Res.map_eq_ok.1 h2
  unfold Perceptron.updateWeights at h3
  split at h3
  · cases h3
  rename_i hlen
  simp only [Res.ok.injEq] at h3
  subst h3
  have hlen' : ((x.2.take p.weights.length).map fun v => p.learningRate * (0 - resp) * v).length = p.weights.length := by
    simp; omega
  refine ⟨rfl, rfl, ?_, rfl, rfl, rfl, 0 - resp, ?_, rfl⟩
  · rw [show (Perceptron.average _).weights = percAverages _ _ _ from rfl, percAverages_length]
    exact hlen'
  · rcases hr with rfl | rfl
    · right; simp
    · left; simp

/-- One pass over the rows. -/
theorem percEpoch_spec {xs : List (String × List K)} {p q : Perceptron K} (h : p.epoch xs = Res.ok q) :
    q.count = p.count + xs.length ∧ q.edges = p.edges.map (· + (xs.length : K)) ∧ q.weights.length = p.weights.length ∧
      q.learningRate = p.learningRate ∧ q.threshold = p.threshold ∧ q.bias = p.bias ∧
      ∀ x, xs.getLast? = some x → ∃ s : K, (s = 1 ∨ s = -1) ∧
        q.weights = lastWeights p s x.2 (q.count - 1) q.edges := by
  induction xs generalizing p with
  | nil =>
    simp only [Perceptron.epoch, Res.ok.injEq] at h
    subst h
    simp
  | cons x xs ih =>
    simp only [Perceptron.epoch] at h
    obtain ⟨p1, h1, h2⟩ := Res.bind_eq_ok.1 h
    obtain ⟨a1, a2, a3, a4, a5, a6, s, a7, a8⟩ := percLearn_spec h1
    obtain ⟨b1, b2, b3, b4, b5, b6, b7⟩ := ih h2
    refine ⟨?_, ?_, by rw [b3, a3], by rw [b4, a4], by rw [b5, a5], by rw [b6, a6], ?_⟩
    · rw [b1, a1]; push_cast [List.length_cons]; ring
    · rw [b2, a2, List.map_map]
      congr 1
      funext e
      simp only [Function.comp, List.length_cons]
      push_cast
      ring
    · intro y hy
      cases xs with
      | nil =>
        simp only [Perceptron.epoch, Res.ok.injEq] at h2
        subst h2
        simp only [List.getLast?_singleton, Option.some.injEq] at hy
        subst hy
        refine ⟨s, a7, ?_⟩
        rw [a8, a1, a2]
        simp
      | cons z zs =>
        rw [List.getLast?_cons_cons] at hy
        obtain ⟨t, t1, t2⟩ := b7 y hy
        refine ⟨t, t1, ?_⟩
        rw [t2]
        simp only [lastWeights, a3, a4]

theorem percEpochs_spec {xs : List (String × List K)} (n : Nat) {p q : Perceptron K} (h : Perceptron.epochs xs n p = Res.ok q) :
    q.count = p.count + (n * xs.length : Nat) ∧ q.edges = p.edges.map (· + ((n * xs.length : Nat) : K)) ∧
      q.weights.length = p.weights.length ∧ q.learningRate = p.learningRate ∧ q.threshold = p.threshold ∧ q.bias = p.bias ∧
      ∀ x, xs.getLast? = some x → 0 < n → ∃ s : K, (s = 1 ∨ s = -1) ∧
        q.weights = lastWeights p s x.2 (q.count - 1) q.edges := by
  induction n generalizing p with
  | zero =>
    simp only [Perceptron.epochs, Res.ok.injEq] at h
    subst h
    simp
  | succ n ih =>
    simp only [Perceptron.epochs] at h
    obtain ⟨p1, h1, h2⟩ := Res.bind_eq_ok.1 h
    obtain ⟨a1, a2, a3, a4, a5, a6, a7⟩ := percEpoch_spec h1
    obtain ⟨b1, b2, b3, b4, b5, b6, b7⟩ := ih h2
    refine ⟨?_, ?_, by rw [b3, a3], by rw [b4, a4], by rw [b5, a5], by rw [b6, a6], ?_⟩
    · rw [b1, a1]; push_cast; ring
    · rw [b2, a2, List.map_map]
      congr 1
      funext e
      simp only [Function.comp]
      push_cast
      ring
    · intro y hy _
      cases n with
      | zero =>
        simp only [Perceptron.epochs, Res.ok.injEq] at h2
        subst h2
        exact a7 y hy
      | succ n =>
        obtain ⟨t, t1, t2⟩ := b7 y hy (by omega)
        refine ⟨t, t1, ?_⟩
        rw [t2]
        simp only [lastWeights, a3, a4]

theorem percAverages_get (c : K) (fs ws : List K) (i : Nat) (f w : K) (hf : fs[i]? = some f) (hw : ws[i]? = some w) :
    (percAverages c fs ws)[i]? = some ((c * w + f) / (f + 1)) := by
  induction fs generalizing ws i with
  | nil => simp at hf
  | cons f0 fs ih =>
    cases ws with
    | nil => simp at hw
    | cons w0 ws =>
      cases i with
      | zero =>
        simp only [List.getElem?_cons_zero, Option.some.injEq] at hf hw
        subst hf; subst hw
        simp [percAverages]
      | succ i =>
        rw [List.getElem?_cons_succ] at hf hw
        rw [percAverages, List.getElem?_cons_succ]
        exact ih ws i hf hw
end

/-! ## The filters -/

section
variable {K : Type} [Field K] [LinearOrder K]

theorem binRow_agree (val : U64 → K) (C : List Attr) (ss : List Spec) (hss : ∀ s ∈ ss, s.attr ∈ C) (bs : List Bytes)
    (m m' r : GoMap Attr (Range K)) (hm : ∀ a ∈ C, m.get? a = m'.get? a) (h : binRow val ss bs m = Res.ok r) :
    ∃ r', binRow val ss bs m' = Res.ok r' ∧ ∀ a ∈ C, r.get? a = r'.get? a := by
  induction ss generalizing bs m m' with
  | nil =>
    cases bs with
    | nil =>
      simp only [binRow, Res.ok.injEq] at h
      subst h
      exact ⟨m', rfl, hm⟩
    | cons b bs => cases h
  | cons s ss ih =>
    cases bs with
    | nil =>
      simp only [binRow, Res.ok.injEq] at h
      subst h
      exact ⟨m', rfl, hm⟩
    | cons b bs =>
      rw [binRow] at h ⊢
      split at h
      · rename_i hf
        rw [if_pos hf]
        obtain ⟨u, h1, h2⟩ := Res.bind_eq_ok.1 h
        rw [h1, Res.bind_ok, ← hm _ (hss s List.mem_cons_self)]
        refine ih (fun t ht => hss t (List.mem_cons_of_mem _ ht)) bs _ _ ?_ h2
        intro a ha
        rw [GoMap.get?_set, GoMap.get?_set, hm a ha]
      · cases h

theorem binRows_agree (val : U64 → K) (C : List Attr) (ss : List Spec) (hss : ∀ s ∈ ss, s.attr ∈ C) (rows : Nat → Res (List Bytes))
    (order : List Nat) (m m' r : GoMap Attr (Range K)) (b : Bool) (hm : ∀ a ∈ C, m.get? a = m'.get? a)
    (h : mapOver rows (fun m row _ => (binRow val ss row m).map fun m => (m, Ctl.cont)) m order = Res.ok (r, b)) :
    ∃ r', mapOver rows (fun m row _ => (binRow val ss row m).map fun m => (m, Ctl.cont)) m' order = Res.ok (r', b) ∧
      ∀ a ∈ C, r.get? a = r'.get? a := by
  induction order generalizing m m' with
  | nil =>
    simp only [mapOver, Res.ok.injEq, Prod.mk.injEq] at h
    obtain ⟨rfl, rfl⟩ := h
    exact ⟨m', rfl, hm⟩
  | cons i is ih =>
    simp only [mapOver] at h ⊢
    obtain ⟨vals, h1, h2⟩ := Res.bind_eq_ok.1 h
    obtain ⟨p, h3, h4⟩ := Res.bind_eq_ok.1 h2
    obtain ⟨m1, h5, rfl⟩ := Res.map_eq_ok.1 h3
    obtain ⟨m1', h6, h7⟩ := binRow_agree val C ss hss vals m m' m1 hm h5
    simp only [h1, Res.bind_ok, h6, Res.map_ok]
    exact ih m1 m1' h7 h4

/-- The attributes that the chosen ones resolve to are the chosen ones. -/
theorem specs_chosen {g : Grid} {n : Nat} (P : g.Presents n) {chosen : List Attr} (hsub : ∀ a ∈ chosen, a ∈ g.allAttributes)
    {specs : List Spec} (h : discSpecs g chosen = Res.ok specs) : specs.map Spec.attr = chosen := by
  unfold discSpecs Grid.resolveUnsorted at h
  rw [mapRes_eq_ok] at h
  induction h with
  | nil => rfl
  | @cons a s as ss h1 h2 ih =>
    obtain ⟨t, t1, t2, _⟩ := P.read a (hsub a (by simp))
    rw [t1] at h1
    simp only [Res.ok.injEq] at h1
    subst h1
    rw [List.map_cons, ih fun b hb => hsub b (by simp [hb]), t2]

/-- Training from two states gives the same ranges of the chosen attributes. -/
theorem binRetrain_agree (val : U64 → K) {g : Grid} {n : Nat} (P : g.Presents n) (chosen : List Attr)
    (hsub : ∀ a ∈ chosen, a ∈ g.allAttributes) (order : List Nat) (old old' r : GoMap Attr (Range K))
    (h : binRetrain val g chosen order old = Res.ok r) :
    ∃ r', binRetrain val g chosen order old' = Res.ok r' ∧ ∀ a ∈ chosen, r.get? a = r'.get? a := by
  unfold binRetrain at h ⊢
  obtain ⟨specs, h1, h2⟩ := Res.bind_eq_ok.1 h
  rw [h1, Res.bind_ok]
  have hmap := specs_chosen P hsub h1
  have hss : ∀ s ∈ specs, s.attr ∈ chosen := fun s hs => hmap ▸ List.mem_map.2 ⟨s, hs, rfl⟩
  have hstart : ∀ a ∈ chosen, (chosen.foldl (fun m a => m.set a (⟨none, none⟩ : Range K)) old).get? a =
      (chosen.foldl (fun m a => m.set a (⟨none, none⟩ : Range K)) old').get? a := by
    intro a ha
    rw [foldl_none_get, foldl_none_get, if_pos ha, if_pos ha]
  split at h2
  · rename_i m he
    simp only [Res.ok.injEq] at h2
    subst h2
    unfold Grid.mapOverRows at he ⊢
    obtain ⟨it, i1, i2⟩ := Res.bind_eq_ok.1 he
    obtain ⟨r', j1, j2⟩ := binRows_agree val chosen specs hss _ order _ _ _ _ hstart i2
    refine ⟨r', ?_, j2⟩
    rw [i1, Res.bind_ok, j1]
  all_goals cases h2

theorem binTransform_agree [FloorRing K] (val : U64 → K) (bins : Nat) (chosen : List Attr) {m m' : GoMap Attr (Range K)}
    (h : ∀ a ∈ chosen, m.get? a = m'.get? a) : binTransform val bins chosen m = binTransform val bins chosen m' := by
  funext a n raw
  unfold binTransform
  by_cases ha : a ∈ chosen
  · rw [if_pos ha, if_pos ha, h a ha]
  · rw [if_neg ha, if_neg ha]

theorem discAttrs_agree (all chosen : List Attr) {l l' : Attr → List String} (fresh : Nat → Nat) (h : ∀ a ∈ chosen, l a = l' a) :
    discAttrs all chosen l fresh = discAttrs all chosen l' fresh := by
  unfold discAttrs
  congr 1
  funext p
  by_cases hp : p.1 ∈ chosen
  · rw [if_pos hp, if_pos hp, h _ hp]
  · rw [if_neg hp, if_neg hp]

theorem chiTrainLoop_agree (fo : FloatOps) (val : U64 → K) (below : Nat → K → Bool) (minrows maxrows : Int) (g : Grid)
    (order : List Nat) (ss : List Spec) (m m' r : GoMap Attr (List (FreqEntry K)))
    (h : chiTrainLoop fo val below minrows maxrows g order ss m = Res.ok r) :
    ∃ r', chiTrainLoop fo val below minrows maxrows g order ss m' = Res.ok r' ∧
      ∀ a, m.get? a = m'.get? a ∨ a ∈ ss.map Spec.attr → r.get? a = r'.get? a := by
  induction ss generalizing m m' with
  | nil =>
    simp only [chiTrainLoop, Res.ok.injEq] at h
    subst h
    exact ⟨m', rfl, fun a ha => by simpa using ha⟩
  | cons s ss ih =>
    simp only [chiTrainLoop] at h ⊢
    obtain ⟨sorted, h1, h2⟩ := Res.bind_eq_ok.1 h
    obtain ⟨t, h3, h4⟩ := Res.bind_eq_ok.1 h2
    simp only [h1, Res.bind_ok, h3]
    obtain ⟨r', i1, i2⟩ := ih _ (m'.set s.attr t) h4
    refine ⟨r', i1, ?_⟩
    intro a ha
    apply i2
    rw [GoMap.get?_set, GoMap.get?_set]
    by_cases hs : s.attr = a
    · simp [hs]
    · simp only [hs, if_false]
      rcases ha with ha | ha
      · exact Or.inl ha
      · rw [List.map_cons, List.mem_cons] at ha
        exact Or.inr (ha.resolve_left (Ne.symm hs))
end

/-! ## The conversion filters -/

/-- Which columns the filter treats as having two values, and the outputs of the others, after training. -/
theorem trains_state {mk : String → AttrBody} {fresh : Nat → Nat} {tr : Conv → Nat → List Attr → Conv}
    (T : Trains mk fresh tr) (a : Attr) (name : String) (vals : List String) (hbody : a.body = .cat name vals) (attrs : List Attr)
    (c : Conv) (k : Nat) :
    (a ∈ (tr c k attrs).two ↔ a ∈ c.two ∨ (a ∈ attrs ∧ vals.length ≤ 2)) ∧
    ((tr c k attrs).nval.get? a).map (List.map Attr.body) =
      if a ∈ attrs ∧ 2 < vals.length then some (vals.map fun v => mk (name ++ "_" ++ v)) else (c.nval.get? a).map (List.map Attr.body) := by
  induction attrs generalizing c k with
  | nil => rw [T.nil]; simp
  | cons b rest ih =>
    by_cases hb : b = a
    · subst hb
      rw [T.cat c k b rest name vals hbody]
      obtain ⟨h1, h2⟩ := ih (Conv.trainCat mk fresh c k b name vals).1 (Conv.trainCat mk fresh c k b name vals).2
      rw [h1, h2]
      unfold Conv.trainCat
      split
      · rename_i hl
        refine ⟨by simp [hl], ?_⟩
        have : ¬ 2 < vals.length := by omega
        simp [this]
      · rename_i hl
        refine ⟨by simp [hl], ?_⟩
        have : 2 < vals.length := by omega
        simp only [this, and_true, List.mem_cons, true_or, if_true]
        split
        · rfl
        · rw [GoMap.get?_set, if_pos rfl, Option.map_some, oneHot_bodies]
    · have hskip := trains_skip T a [b] (by simpa using Ne.symm hb)
      have hmem : (a ∈ b :: rest) ↔ a ∈ rest := by simp [Ne.symm hb]
      simp only [hmem]
      cases hc : b.isCat with
      | false =>
        obtain ⟨n, k', e, _, _⟩ := T.other c k b rest hc
        rw [e]
        exact ih _ k'
      | true =>
        obtain ⟨p, bd⟩ := b
        cases bd with
        | float _ _ => simp [Attr.isCat] at hc
        | bin _ => simp [Attr.isCat] at hc
        | cat nm vs =>
          obtain ⟨_, s2, s3⟩ := hskip c k
          rw [T.cat c k _ [] nm vs rfl, T.nil] at s2 s3
          rw [T.cat c k _ rest nm vs rfl]
          obtain ⟨h1, h2⟩ := ih (Conv.trainCat mk fresh c k ⟨p, .cat nm vs⟩ nm vs).1 (Conv.trainCat mk fresh c k ⟨p, .cat nm vs⟩ nm vs).2
          rw [h1, h2, s2, s3]
          exact ⟨Iff.rfl, rfl⟩

theorem equals_sameBody {a b n : Attr} (h : a.body = b.body) : a.equals n = b.equals n := by
  obtain ⟨p, x⟩ := a
  obtain ⟨q, y⟩ := b
  simp only at h
  subst h
  rfl

/-- The bit of an output depends on the names and types of the outputs only. -/
theorem catBit_bodies {c c' : Conv} {a : Attr} (h1 : a ∈ c.two ↔ a ∈ c'.two)
    (h2 : (c.nval.get? a).map (List.map Attr.body) = (c'.nval.get? a).map (List.map Attr.body)) (n : Attr) (raw : Bytes) :
    c.catBit a n raw = c'.catBit a n raw := by
  unfold Conv.catBit
  congr 1
  funext v
  simp only [h1]
  split
  · rfl
  · cases h : c.nval.get? a with
    | none =>
      rw [h] at h2
      simp only [Option.map_none] at h2
      rw [Option.map_eq_none_iff.1 h2.symm]
    | some l =>
      rw [h] at h2
      cases h' : c'.nval.get? a with
      | none => rw [h'] at h2; cases h2
      | some l' =>
        rw [h'] at h2
        simp only [Option.map_some, Option.some.injEq] at h2
        have e : (l[v.toNat]?).map Attr.body = (l'[v.toNat]?).map Attr.body := by
          rw [← List.getElem?_map, ← List.getElem?_map, h2]
        simp only
        cases x : l[v.toNat]? with
        | none =>
          rw [x] at e
          simp only [Option.map_none] at e
          rw [Option.map_eq_none_iff.1 e.symm]
        | some b =>
          cases x' : l'[v.toNat]? with
          | none => rw [x, x'] at e; cases e
          | some b' =>
            rw [x, x'] at e
            simp only [Option.map_some, Option.some.injEq] at e
            simp only [equals_sameBody e]

/-- Training again does not change the values of the outputs. -/
theorem catBit_again {mk : String → AttrBody} {fresh : Nat → Nat} {tr : Conv → Nat → List Attr → Conv}
    (T : Trains mk fresh tr) {attrs : List Attr} {a : Attr} (ha : a ∈ attrs) (hc : a.isCat = true) (c : Conv) (k k' : Nat)
    (more : List Attr) (n : Attr) (raw : Bytes) :
    (tr (tr c k attrs) k' more).catBit a n raw = (tr c k attrs).catBit a n raw := by
  obtain ⟨name, vals, hbody⟩ : ∃ name vals, a.body = .cat name vals := by
    obtain ⟨p, b⟩ := a
    cases b with
    | float _ _ => simp [Attr.isCat] at hc
    | bin _ => simp [Attr.isCat] at hc
    | cat name vals => exact ⟨name, vals, rfl⟩
  obtain ⟨h1, h2⟩ := trains_state T a name vals hbody attrs c k
  obtain ⟨h3, h4⟩ := trains_state T a name vals hbody more (tr c k attrs) k'
  apply catBit_bodies
  · rw [h3, h1]
    constructor
    · rintro (h | ⟨_, h⟩)
      · exact h
      · exact Or.inr ⟨ha, h⟩
    · exact Or.inl
  · rw [h4]
    split
    · rename_i h
      rw [h2, if_pos ⟨ha, h.2⟩]
    · rfl

end Golearn
