import Verif.Spec.PercColumns
import Verif.Proofs.Perceptron

/-! # The perceptron with columns in another order: lemmas -/

namespace Golearn

section
variable {K : Type} [Field K] [LinearOrder K]

/-- Two perceptrons have the same weight and the same edge for each column, and agree in everything but the training data. -/
def PercSame (fs fs' : List Attr) (p p' : Perceptron K) : Prop :=
  ∃ w e : Attr → K, p.weights = fs.map w ∧ p'.weights = fs'.map w ∧ p.edges = fs.map e ∧ p'.edges = fs'.map e ∧
    p'.threshold = p.threshold ∧ p'.learningRate = p.learningRate ∧ p'.count = p.count

theorem percAverages_map (c : K) (e w : Attr → K) (fs : List Attr) :
    percAverages c (fs.map e) (fs.map w) = fs.map fun a => (c * w a + e a) / (e a + 1) := by
  induction fs with
  | nil => rfl
  | cons a fs ih => simp only [List.map_cons, percAverages, ih]

theorem PercSame.average {fs fs' : List Attr} {p p' : Perceptron K} (h : PercSame fs fs' p p') :
    PercSame fs fs' p.average p'.average := by
  obtain ⟨w, e, h1, h2, h3, h4, h5, h6, h7⟩ := h
  refine ⟨fun a => (p.count * w a + e a) / (e a + 1), e, ?_, ?_, h3, h4, h5, h6, ?_⟩
  · simp only [Perceptron.average, h1, h3, percAverages_map]
  · simp only [Perceptron.average, h2, h4, h7, percAverages_map]
  · simp only [Perceptron.average, h7]

theorem zipWith_maps (w v : Attr → K) (fs : List Attr) :
    List.zipWith (fun w v => v * w) (fs.map w) (fs.map v) = fs.map fun a => v a * w a := by
  induction fs with
  | nil => rfl
  | cons a fs ih => simp only [List.map_cons, List.zipWith_cons_cons, ih]

theorem PercSame.positive {fs fs' : List Attr} (hfs : fs'.Perm fs) {p p' : Perceptron K} (h : PercSame fs fs' p p') (v : Attr → K) :
    p'.score (fs'.map v) = p.score (fs.map v) := by
  obtain ⟨w, e, h1, h2, _, _, h5, _, _⟩ := h
  unfold Perceptron.score
  rw [h1, h2, percDot_eq _ _ (by simp), percDot_eq _ _ (by simp), zipWith_maps, zipWith_maps, h5, (hfs.map fun a => v a * w a).sum_eq]

theorem PercSame.learn {fs fs' : List Attr} (hfs : fs'.Perm fs) {p p' : Perceptron K} (h : PercSame fs fs' p p') (v : Attr → K)
    (s s' : String) :
    ∃ q q', p.learn (s, fs.map v) = Res.ok q ∧ p'.learn (s', fs'.map v) = Res.ok q' ∧ PercSame fs fs' q q' := by
  classical
  have hs := h.positive hfs v
  obtain ⟨w, e, h1, h2, h3, h4, h5, h6, h7⟩ := id h
  have hl : p.weights.length ≤ (fs.map v).length := by rw [h1]; simp
  unfold Perceptron.learn
  simp only [hs, score_eq p _ hl, Res.bind_ok]
  generalize (if p.Positive (fs.map v) then (1 : K) else -1) = resp
  by_cases hr : (0 : K) ≠ resp
  · rw [if_pos hr, if_pos hr, Perceptron.updateWeights, Perceptron.updateWeights, if_neg (by omega), if_neg (by rw [h2]; simp), Res.map_ok,
      Res.map_ok]
    refine ⟨_, _, rfl, rfl, ?_⟩
    have hu : PercSame fs fs'
        { p with weights := ((fs.map v).take p.weights.length).map fun x => p.learningRate * (0 - resp) * x
                 edges := p.edges.map fun e => e + 1 }
        { p' with weights := ((fs'.map v).take p'.weights.length).map fun x => p'.learningRate * (0 - resp) * x
                  edges := p'.edges.map fun e => e + 1 } := by
      refine ⟨fun a => p.learningRate * (0 - resp) * v a, fun a => e a + 1, ?_, ?_, ?_, ?_, h5, h6, h7⟩
      · simp only [h1, List.length_map]
        rw [List.take_of_length_le (by simp), List.map_map]; rfl
      · simp only [h2, List.length_map, h6]
        rw [List.take_of_length_le (by simp), List.map_map]; rfl
      · simp only [h3, List.map_map]; rfl
      · simp only [h4, List.map_map]; rfl
    obtain ⟨w', e', g⟩ := hu.average
    exact ⟨w', e', g⟩
  · rw [if_neg hr, if_neg hr]
    exact ⟨p, p', rfl, rfl, h⟩

theorem PercSame.epoch {fs fs' : List Attr} (hfs : fs'.Perm fs) (vs : List (String × String × (Attr → K))) {p p' : Perceptron K}
    (h : PercSame fs fs' p p') :
    ∃ q q', p.epoch (vs.map fun x => (x.1, fs.map x.2.2)) = Res.ok q ∧ p'.epoch (vs.map fun x => (x.2.1, fs'.map x.2.2)) = Res.ok q' ∧
      PercSame fs fs' q q' := by
  induction vs generalizing p p' with
  | nil => exact ⟨p, p', rfl, rfl, h⟩
  | cons x vs ih =>
    obtain ⟨q, q', e1, e2, h'⟩ := h.learn hfs x.2.2 x.1 x.2.1
    obtain ⟨r, r', f1, f2, h''⟩ := ih h'
    exact ⟨r, r', by simp only [List.map_cons, Perceptron.epoch, e1, Res.bind_ok, f1],
      by simp only [List.map_cons, Perceptron.epoch, e2, Res.bind_ok, f2], h''⟩

theorem PercSame.epochs {fs fs' : List Attr} (hfs : fs'.Perm fs) (vs : List (String × String × (Attr → K))) (n : Nat)
    {p p' : Perceptron K} (h : PercSame fs fs' p p') :
    ∃ q q', Perceptron.epochs (vs.map fun x => (x.1, fs.map x.2.2)) n p = Res.ok q ∧
      Perceptron.epochs (vs.map fun x => (x.2.1, fs'.map x.2.2)) n p' = Res.ok q' ∧ PercSame fs fs' q q' := by
  induction n generalizing p p' with
  | zero => exact ⟨p, p', rfl, rfl, h⟩
  | succ n ih =>
    obtain ⟨q, q', e1, e2, h'⟩ := h.epoch hfs vs
    obtain ⟨r, r', f1, f2, h''⟩ := ih h'
    exact ⟨r, r', by simp only [Perceptron.epochs, e1, Res.bind_ok, f1], by simp only [Perceptron.epochs, e2, Res.bind_ok, f2], h''⟩

theorem PercSame.write {fs fs' : List Attr} (hfs : fs'.Perm fs) (spec : Spec) (vs : List (String × String × (Attr → K)))
    {p p' : Perceptron K} (h : PercSame fs fs' p p') (i : Nat) (d : Dense) :
    p'.write spec (vs.map fun x => (x.2.1, fs'.map x.2.2)) i d = p.write spec (vs.map fun x => (x.1, fs.map x.2.2)) i d := by
  induction vs generalizing i d with
  | nil => rfl
  | cons x vs ih =>
    simp only [List.map_cons, Perceptron.write, h.positive hfs]
    congr 1
    funext s
    congr 1
    funext d'
    exact ih (i + 1) d'

end

end Golearn
