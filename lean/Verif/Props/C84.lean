import Verif.Proofs.Predict

/-! # C84: predictions are read back as they were written -/

namespace Golearn

/-- Writing labels one after the other. -/
def writeLabels (fo : FloatOps) (parse : String → Option U64) : Dense → List (Nat × String) → Res Dense
  | d, [] => Res.ok d
  | d, w :: ws => (setClass fo parse d w.1 w.2).bind fun d' => writeLabels fo parse d' ws

/-- The label that was written last to a row. -/
def lastLabel (ws : List (Nat × String)) (r : Nat) : Option String :=
  (ws.reverse.find? fun w => w.1 == r).map Prod.snd

theorem writeLabels_append (fo : FloatOps) (parse : String → Option U64) (d : Dense) (ws : List (Nat × String))
    (w : Nat × String) : writeLabels fo parse d (ws ++ [w]) =
      (writeLabels fo parse d ws).bind fun d' => setClass fo parse d' w.1 w.2 := by
  induction ws generalizing d with
  | nil =>
    show (setClass fo parse d w.1 w.2).bind (fun d' => Res.ok d') = setClass fo parse d w.1 w.2
    cases setClass fo parse d w.1 w.2 <;> rfl
  | cons x xs ih =>
    rw [List.cons_append, writeLabels, writeLabels]
    cases h : setClass fo parse d x.1 x.2 with
    | ok d1 => simp only [Res.bind]; exact ih d1
    | err => rfl
    | panic => rfl

theorem lastLabel_append (ws : List (Nat × String)) (w : Nat × String) (r : Nat) :
    lastLabel (ws ++ [w]) r = if w.1 = r then some w.2 else lastLabel ws r := by
  unfold lastLabel
  rw [List.reverse_append, List.reverse_singleton, List.singleton_append, List.find?_cons]
  by_cases h : w.1 = r
  · simp [h]
  · have : (w.1 == r) = false := by simp [h]
    rw [this, if_neg h]

theorem writeLabels_spec (fo : FloatOps) (parse : String → Option U64) {d : Dense} {n p : Nat} {nm : String}
    {vs : List String} (h : PredVec d n ⟨p, .cat nm vs⟩) (ws : List (Nat × String))
    (hr : ∀ w ∈ ws, w.1 < n) (hb : vs.length + ws.length ≤ 2 ^ 64) :
    ∃ d' vs', writeLabels fo parse d ws = Res.ok d' ∧ PredVec d' n ⟨p, .cat nm vs'⟩ ∧ vs <+: vs' ∧
      vs'.length ≤ vs.length + ws.length ∧ (∀ x ∈ vs', x ∈ vs ∨ x ∈ ws.map Prod.snd) ∧
      (∀ r, r < n → ∀ c, lastLabel ws r = some c → getClass fo (.dense d') r = Res.ok c) ∧
      (∀ r, r < n → lastLabel ws r = none → ∀ c, getClass fo (.dense d) r = Res.ok c →
        getClass fo (.dense d') r = Res.ok c) := by
  induction ws using List.reverseRecOn with
  | nil =>
    refine ⟨d, vs, rfl, h, List.prefix_refl _, by simp, fun x hx => Or.inl hx, ?_, fun _ _ _ c hc => hc⟩
    intro r _ c hc
    cases hc
  | append_singleton ws w ih =>
    rw [List.length_append, List.length_singleton] at hb
    obtain ⟨d1, vs1, a1, a2, a3, a4, a5, a6, a7⟩ := ih (fun x hx => hr x (List.mem_append_left _ hx)) (by omega)
    obtain ⟨d2, vs2, b1, b2, b3, b4, b5, b6, b7⟩ := a2.setClass (fo := fo) (parse := parse)
      (hr w (List.mem_append_right _ List.mem_cons_self)) (by omega) w.2
    refine ⟨d2, vs2, ?_, b2, a3.trans b3, ?_, ?_, ?_, ?_⟩
    · rw [writeLabels_append, a1]; exact b1
    · rw [List.length_append, List.length_singleton]; omega
    · intro x hx
      rw [List.map_append, List.mem_append]
      rcases b5 x hx with h1 | h1
      · rcases a5 x h1 with h2 | h2
        · exact Or.inl h2
        · exact Or.inr (Or.inl h2)
      · exact Or.inr (Or.inr (by simp [h1]))
    · intro r hrn c hc
      rw [lastLabel_append] at hc
      by_cases he : w.1 = r
      · rw [if_pos he, Option.some.injEq] at hc
        rw [← he, ← hc]; exact b6
      · rw [if_neg he] at hc
        exact b7 r hrn (Ne.symm he) c (a6 r hrn c hc)
    · intro r hrn hc c hgc
      rw [lastLabel_append] at hc
      by_cases he : w.1 = r
      · rw [if_pos he] at hc; cases hc
      · rw [if_neg he] at hc
        exact b7 r hrn (Ne.symm he) c (a7 r hrn hc c hgc)

/-- A prediction vector for data with one categorical class: any sequence of labels can be written, known
labels and new ones, and every row then reads as the label written to it last. A row that was not written
reads as the first label of the class. -/
theorem C84_predictions (fo : FloatOps) (parse : String → Option U64) (pg : Nat) (g : Grid) (n p : Nat) (nm : String)
    (vs : List String) (hn : g.size.2 = n) (hc : g.allClassAttributes = [⟨p, .cat nm vs⟩])
    (ws : List (Nat × String)) (hr : ∀ w ∈ ws, w.1 < n) (hb : vs.length + ws.length ≤ 2 ^ 64) :
    ∃ d0 d, generatePredictionVector pg g = Res.ok d0 ∧ writeLabels fo parse d0 ws = Res.ok d ∧
      d.maxRow = n ∧
      (∀ r, r < n → ∀ c, lastLabel ws r = some c → getClass fo (.dense d) r = Res.ok c) ∧
      (∀ r, r < n → lastLabel ws r = none → ∀ c, vs.head? = some c → getClass fo (.dense d) r = Res.ok c) := by
  obtain ⟨d0, e1, e2, e3⟩ := generate_spec pg hn hc
  obtain ⟨d, vs', a1, a2, _, _, _, a6, a7⟩ := writeLabels_spec fo parse e2 ws hr hb
  refine ⟨d0, d, e1, a1, a2.rows, a6, ?_⟩
  intro r hrn hl c hh
  refine a7 r hrn hl c ?_
  rw [e2.getClass, e3 r hrn]
  simp only [Res.bind, Attr.getString]
  cases vs with
  | nil => cases hh
  | cons v vs =>
    rw [List.head?_cons, Option.some.injEq] at hh
    subst hh
    exact catGetString_pack (i := 0) (by decide) rfl

/-- Without any label the class of a row cannot be read. -/
theorem C84_no_labels (fo : FloatOps) (pg : Nat) (g : Grid) (n p : Nat) (nm : String) (hn : g.size.2 = n)
    (hc : g.allClassAttributes = [⟨p, .cat nm []⟩]) (r : Nat) (hr : r < n) :
    ∃ d0, generatePredictionVector pg g = Res.ok d0 ∧ getClass fo (.dense d0) r = Res.panic := by
  obtain ⟨d0, e1, e2, e3⟩ := generate_spec pg hn hc
  refine ⟨d0, e1, ?_⟩
  rw [e2.getClass, e3 r hr]
  rfl

/-- Three rows, a label that is known and a new one, a row written twice and a row not written. -/
example : (generatePredictionVector 4096 (.dense { Dense.new with
      classAttrs := [(⟨some 0, 0, ⟨1, .cat "c" ["a", "b"]⟩⟩, true)], maxRow := 3 })).bind (fun d0 =>
    (writeLabels ⟨fun _ _ => "", fun _ _ => false⟩ (fun _ => none) d0 [(1, "a"), (2, "z"), (1, "b")]).bind fun d =>
      mapRes (getClass ⟨fun _ _ => "", fun _ _ => false⟩ (.dense d)) [0, 1, 2]) = Res.ok ["a", "b", "z"] := by
  decide +kernel

end Golearn
