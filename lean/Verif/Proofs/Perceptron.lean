import Verif.Spec.Perceptron
import Verif.Proofs.CartGrid
import Verif.Proofs.PredLoop

/-! # The perceptron: lemmas -/

namespace Golearn

section
variable {K : Type} [Field K] [LinearOrder K]

theorem percDot_eq (ws xs : List K) (h : ws.length ≤ xs.length) (acc : K) :
    percDot ws xs acc = Res.ok (acc + (List.zipWith (fun w v => v * w) ws xs).sum) := by
  induction ws generalizing xs acc with
  | nil => simp [percDot]
  | cons w ws ih =>
    cases xs with
    | nil => simp at h
    | cons x xs =>
      simp only [percDot, List.zipWith_cons_cons, List.sum_cons]
      rw [ih xs (by simpa using h), add_assoc]

open Classical in
theorem score_eq (p : Perceptron K) (x : List K) (h : p.weights.length ≤ x.length) :
    p.score x = Res.ok (if p.Positive x then 1 else -1) := by
  simp only [Perceptron.score, percDot_eq _ _ h, Res.map_ok, zero_add, Perceptron.Positive]
  congr

theorem percAverages_length (c : K) (fs ws : List K) : (percAverages c fs ws).length = ws.length := by
  induction fs generalizing ws with
  | nil => simp [percAverages]
  | cons f fs ih =>
    cases ws with
    | nil => simp [percAverages]
    | cons w ws => simp [percAverages, ih]

theorem average_length (p : Perceptron K) : p.average.weights.length = p.weights.length :=
  percAverages_length _ _ _

theorem learn_eq (p : Perceptron K) (a b : String) (x : List K) : p.learn (a, x) = p.learn (b, x) := rfl

theorem epoch_labels (xs ys : List (String × List K)) (h : xs.map Prod.snd = ys.map Prod.snd) (p : Perceptron K) :
    p.epoch xs = p.epoch ys := by
  induction xs generalizing ys p with
  | nil =>
    cases ys with
    | nil => rfl
    | cons y ys => simp at h
  | cons x xs ih =>
    cases ys with
    | nil => simp at h
    | cons y ys =>
      rw [List.map_cons, List.map_cons, List.cons.injEq] at h
      obtain ⟨x1, x2⟩ := x
      obtain ⟨y1, y2⟩ := y
      obtain ⟨rfl, h2⟩ := h
      simp only [Perceptron.epoch]
      rw [learn_eq p x1 y1]
      congr 1
      funext q
      exact ih ys h2 q

theorem epochs_labels (xs ys : List (String × List K)) (h : xs.map Prod.snd = ys.map Prod.snd) (n : Nat) (p : Perceptron K) :
    Perceptron.epochs xs n p = Perceptron.epochs ys n p := by
  induction n generalizing p with
  | zero => rfl
  | succ n ih =>
    simp only [Perceptron.epochs, epoch_labels xs ys h]
    congr 1
    funext q
    exact ih q

/-- Training keeps the number of weights and the threshold, and succeeds if the rows are long enough. -/
theorem learn_ok (p : Perceptron K) (x : String × List K) (h : p.weights.length ≤ x.2.length) :
    ∃ q, p.learn x = Res.ok q ∧ q.weights.length = p.weights.length ∧ q.threshold = p.threshold := by
  classical
  unfold Perceptron.learn
  rw [score_eq p x.2 h, Res.bind_ok]
  generalize (if p.Positive x.2 then (1 : K) else -1) = resp
  by_cases hr : (0 : K) ≠ resp
  · rw [if_pos hr, Perceptron.updateWeights, if_neg (by omega), Res.map_ok]
    refine ⟨_, rfl, ?_, rfl⟩
    show (percAverages _ _ _).length = _
    rw [percAverages_length]
    simp [h]
  · rw [if_neg hr]
    exact ⟨p, rfl, rfl, rfl⟩

theorem epoch_ok (xs : List (String × List K)) (p : Perceptron K) (h : ∀ x ∈ xs, p.weights.length ≤ x.2.length) :
    ∃ q, p.epoch xs = Res.ok q ∧ q.weights.length = p.weights.length ∧ q.threshold = p.threshold := by
  induction xs generalizing p with
  | nil => exact ⟨p, rfl, rfl, rfl⟩
  | cons x xs ih =>
    obtain ⟨q, h1, h2, h3⟩ := learn_ok p x (h x List.mem_cons_self)
    obtain ⟨q', i1, i2, i3⟩ := ih q (fun y hy => by rw [h2]; exact h y (List.mem_cons_of_mem _ hy))
    exact ⟨q', by simp only [Perceptron.epoch, h1, Res.bind_ok, i1], i2.trans h2, i3.trans h3⟩

theorem epochs_ok (xs : List (String × List K)) (n : Nat) (p : Perceptron K) (h : ∀ x ∈ xs, p.weights.length ≤ x.2.length) :
    ∃ q, Perceptron.epochs xs n p = Res.ok q ∧ q.weights.length = p.weights.length ∧ q.threshold = p.threshold := by
  induction n generalizing p with
  | zero => exact ⟨p, rfl, rfl, rfl⟩
  | succ n ih =>
    obtain ⟨q, h1, h2, h3⟩ := epoch_ok xs p h
    obtain ⟨q', i1, i2, i3⟩ := ih q (fun y hy => by rw [h2]; exact h y hy)
    exact ⟨q', by simp only [Perceptron.epochs, h1, Res.bind_ok, i1], i2.trans h2, i3.trans h3⟩

/-- What `processData` reads. -/
theorem percData_spec {fo : FloatOps} {val : U64 → K} {srt : List Spec → List Spec} {order : List Nat} {g : Grid} {n : Nat}
    {c : Attr} {s0 s1 : String} {k : Nat → String} (T : TwoClasses fo g n c s0 s1 k) (ho : g.RowOrder order)
    {fs : List Attr} (hfs : fs.Perm g.nonClassFloats)
    (hsp : ∀ sp : Attr → Spec, srt (g.nonClassFloats.map sp) = fs.map sp) :
    percData fo val srt order g = Res.ok ((List.range n).map fun r => (k r, g.point val fs r)) := by
  have P := T.table
  obtain ⟨sp, x1, x2⟩ := features_spec P T.typed (num := g.nonClassFloats)
    (fun a ha => ⟨a, (nonClassFloats_mem ha).1, C28_equals_refl a, rfl⟩) (fun a ha => (nonClassFloats_mem ha).2)
  obtain ⟨x3, x4⟩ := x2 fs (fun a ha => hfs.subset ha)
  have o1 := P.order _ ho
  have hm := mapOver_all (g.rowVals (fs.map sp)) (fun r => fs.map fun a => g.cell a r) (percCallback fo val g)
    (fun m _ r => setRow m r (k r, g.point val fs r)) order (fun r hr => (x4 r (List.mem_range.1 (o1.subset hr))).1)
    (by
      intro m r hr
      have hr' := List.mem_range.1 (o1.subset hr)
      unfold percCallback
      rw [(x4 r hr').2 val, Res.bind_ok, getClass_ok P T.cls T.known T.labels hr', Res.map_ok]) (fun _ => ("", []))
  obtain ⟨nm, hb⟩ := T.two
  have hok : percClassOk g = true := by
    simp only [percClassOk, T.cls, hb]
    rfl
  unfold percData
  unfold Grid.resolve
  rw [x1, Res.map_ok, Res.bind_ok, hsp, if_pos hok]
  unfold Grid.mapOverRows
  rw [x3, Res.bind_ok, hm]
  simp only [keepState, Res.map_ok, P.rows]
  congr 1
  apply List.map_congr_left
  intro r hr
  rw [setRow_foldl (fun r => (k r, g.point val fs r)), if_pos (o1.symm.subset hr)]

/-- What is in row `r` after the first `i` rows have been handled. -/
def percRow (s : Nat → Prop) (i r : Nat) : Prop :=
  if r = 1 then 1 < i ∧ ∀ j, 1 ≤ j → j < i → s j else r < i ∧ s r

variable [IsStrictOrderedRing K]

open Classical in
theorem write_spec (p : Perceptron K) {n : Nat} (hn : 2 ≤ n) {a : Attr} (D : Nat → String × List K)
    (hD : ∀ r, r < n → p.weights.length ≤ (D r).2.length) (m i : Nat) (hi : i + m = n) (d : Dense) (hv : PredVec d n a)
    (hd : ∀ r, r < n → d.get ⟨some 0, 0, a⟩ r =
      Res.ok (packU64 (if percRow (fun j => p.Positive (D j).2) i r then 1#64 else 0#64))) :
    ∃ d', p.write ⟨some 0, 0, a⟩ ((List.range' i m).map D) i d = Res.ok d' ∧ PredVec d' n a ∧
      ∀ r, r < n → d'.get ⟨some 0, 0, a⟩ r =
        Res.ok (packU64 (if percRow (fun j => p.Positive (D j).2) n r then 1#64 else 0#64)) := by
  induction m generalizing i d with
  | zero =>
    have : i = n := by omega
    subst this
    exact ⟨d, rfl, hv, hd⟩
  | succ m ih =>
    have hz : packU64 0#64 = List.replicate 8 0#8 := by decide
    rw [List.range'_succ, List.map_cons]
    simp only [Perceptron.write, score_eq p _ (hD i (by omega)), Res.bind_ok]
    by_cases hs : p.Positive (D i).2
    · rw [if_pos hs, if_pos one_pos]
      obtain ⟨d1, w1, w2, w3, w4⟩ := hv.write (r := i) (by omega) (v := packU64 1#64) (packU64_length _)
      rw [w1, Res.bind_ok]
      refine ih (i + 1) (by omega) d1 w2 ?_
      intro r hr
      by_cases hri : r = i
      · subst hri
        rw [w3, if_pos]
        unfold percRow
        split
        · rename_i h1
          subst h1
          exact ⟨by omega, fun j h1 h2 => by
            have : j = 1 := by omega
            subst this; exact hs⟩
        · exact ⟨by omega, hs⟩
      · rw [w4 r hr hri, hd r hr]
        congr 3
        apply propext
        unfold percRow
        split
        · rename_i h1
          subst h1
          constructor
          · rintro ⟨h1, h2⟩
            refine ⟨by omega, fun j hj hj' => ?_⟩
            by_cases hji : j = i
            · subst hji; exact hs
            · exact h2 j hj (by omega)
          · rintro ⟨h1, h2⟩
            exact ⟨by omega, fun j hj hj' => h2 j hj (by omega)⟩
        · constructor
          · rintro ⟨h1, h2⟩; exact ⟨by omega, h2⟩
          · rintro ⟨h1, h2⟩; exact ⟨by omega, h2⟩
    · rw [if_neg hs, if_neg (by
        have : (-1 : K) < 0 := neg_lt_zero.2 one_pos
        exact not_lt.2 this.le)]
      obtain ⟨d1, w1, w2, w3, w4⟩ := hv.write (r := 1) (by omega) (v := List.replicate 8 0#8) (by simp)
      rw [w1, Res.bind_ok]
      refine ih (i + 1) (by omega) d1 w2 ?_
      intro r hr
      by_cases hr1 : r = 1
      · subst hr1
        rw [w3, if_neg, hz]
        unfold percRow
        rw [if_pos rfl]
        rintro ⟨h1, h2⟩
        exact hs (h2 i (by omega) (by omega))
      · rw [w4 r hr hr1, hd r hr]
        congr 3
        apply propext
        unfold percRow
        rw [if_neg hr1, if_neg hr1]
        constructor
        · rintro ⟨h1, h2⟩; exact ⟨by omega, h2⟩
        · rintro ⟨h1, h2⟩
          refine ⟨?_, h2⟩
          by_contra hcon
          have : r = i := by omega
          subst this
          exact hs h2
end

end Golearn
