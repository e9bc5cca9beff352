import Verif.Proofs.Lines
import Verif.Spec.TreeText

/-! # A printed ID3 tree can be read in only one way -/

namespace Golearn

/-- The lines of a printed tree. -/
def treeLines (num : U64 → String) (sort : List String → List String) : Tree → Nat → List String
  | .leaf _ c, lv => [tabs lv ++ ("Leaf(" ++ c ++ ")")]
  | .split _ _ r keys child, lv =>
    (tabs lv ++ ("Rule(" ++ ruleText num r ++ ")")) ::
      (sort keys).flatMap fun k => (tabs (lv + 1) ++ k) :: treeLines num sort (child k) (lv + 1)

theorem join_shift (f g : String → String) (l : List String) (h : ∀ k ∈ l, f k ++ "\n" = "\n" ++ g k) :
    String.join (l.map f) ++ "\n" = "\n" ++ String.join (l.map g) := by
  induction l with
  | nil => show ("" : String) ++ "\n" = "\n" ++ ""; decide
  | cons k ks ih =>
    rw [List.map_cons, List.map_cons, String.join_cons, String.join_cons, String.append_assoc, ih fun x hx => h x (List.mem_cons_of_mem _ hx),
      ← String.append_assoc, h k List.mem_cons_self, String.append_assoc]

theorem linesText_flatMap (f : String → List String) (l : List String) :
    linesText (l.flatMap f) = String.join (l.map fun k => linesText (f k)) := by
  induction l with
  | nil => rfl
  | cons k ks ih => rw [List.flatMap_cons, linesText_append, List.map_cons, String.join_cons, ih]

theorem nested_lines (num : U64 → String) (sort : List String → List String) (t : Tree) : ∀ lv,
    nestedString num sort t lv ++ "\n" = linesText (treeLines num sort t lv) := by
  induction t with
  | leaf d c =>
    intro lv
    rw [nestedString, treeLines, linesText_cons, linesText_nil, String.append_empty]
  | split d c r keys child ih =>
    intro lv
    rw [nestedString, treeLines, linesText_cons, linesText_flatMap, String.append_assoc, join_shift _
      (fun k => linesText ((tabs (lv + 1) ++ k) :: treeLines num sort (child k) (lv + 1)))]
    · simp only [String.append_assoc]
    · intro k _
      rw [linesText_cons, String.append_assoc, ih k, tabs]
      simp only [String.append_assoc]

theorem tabs_toList (n : Nat) : (tabs n).toList = List.replicate n '\t' := by
  induction n with
  | zero => rfl
  | succ n ih =>
    rw [tabs, String.toList_append, ih, List.replicate_succ']
    rfl

theorem oneLine_lit {s : String} (h : s.toList.contains '\n' = false) : OneLine s := by
  intro hm
  rw [List.contains_iff_mem.2 hm] at h
  cases h

theorem oneLine_tabs (n : Nat) : OneLine (tabs n) := by
  unfold OneLine
  rw [tabs_toList]
  intro h
  exact absurd (List.eq_of_mem_replicate h) (by decide)

theorem oneLine_rule {num : U64 → String} (hn : ∀ u, OneLine (num u)) (r : Rule) (h : OneLine r.attr.name) : OneLine (ruleText num r) := by
  unfold ruleText
  split
  · exact oneLine_append (oneLine_append (oneLine_append (oneLine_append (oneLine_lit (by decide)) h) (oneLine_lit (by decide))) (hn _)) (oneLine_lit (by decide))
  · exact oneLine_append (oneLine_append (oneLine_lit (by decide)) h) (oneLine_lit (by decide))

theorem treeLines_oneLine {num : U64 → String} {sort : List String → List String} (hn : ∀ u, OneLine (num u)) (hs : ∀ l, (sort l).Perm l) (t : Tree) :
    t.Plain → ∀ lv, ∀ l ∈ treeLines num sort t lv, OneLine l := by
  induction t with
  | leaf d c =>
    intro hp lv l hl
    rw [treeLines, List.mem_singleton] at hl
    rw [hl]
    exact oneLine_append (oneLine_tabs _) (oneLine_append (oneLine_append (oneLine_lit (by decide)) hp) (oneLine_lit (by decide)))
  | split d c r keys child ih =>
    intro hp lv l hl
    rw [treeLines, List.mem_cons] at hl
    rcases hl with rfl | hl
    · exact oneLine_append (oneLine_tabs _) (oneLine_append (oneLine_append (oneLine_lit (by decide)) (oneLine_rule hn r hp.1)) (oneLine_lit (by decide)))
    · obtain ⟨k, hk, hl⟩ := List.mem_flatMap.1 hl
      have hp := hp.2 k ((hs _).subset hk)
      rcases List.mem_cons.1 hl with rfl | hl
      · exact oneLine_append (oneLine_tabs _) hp.1.1
      · exact ih k hp.2 _ l hl

/-- The lines that follow a subtree: the first has at most `lv` tabs. -/
def EndsAt (lv : Nat) (x : List String) : Prop :=
  ∀ l, x.head? = some l → ∃ m r, m ≤ lv ∧ l = tabs m ++ r ∧ r.toList.head? ≠ some '\t'

theorem tabs_apart {m n : Nat} (h : m < n) {r s : String} (hr : r.toList.head? ≠ some '\t') : tabs m ++ r ≠ tabs n ++ s := by
  intro e
  have := congrArg String.toList e
  rw [String.toList_append, String.toList_append, tabs_toList, tabs_toList] at this
  obtain ⟨k, rfl⟩ : ∃ k, n = m + (k + 1) := ⟨n - m - 1, by omega⟩
  rw [List.replicate_add, List.append_assoc, List.append_cancel_left_eq, List.replicate_succ] at this
  rw [this] at hr
  simp at hr

theorem wrap_inj {a s t b : String} (h : a ++ s ++ b = a ++ t ++ b) : s = t := by
  have := congrArg String.toList h
  simp only [String.toList_append, List.append_cancel_left_eq, List.append_cancel_right_eq] at this
  exact String.ext_iff.2 this

theorem leaf_ne_rule (s t : String) : "Leaf(" ++ s ++ ")" ≠ "Rule(" ++ t ++ ")" := by
  intro h
  have := congrArg String.toList h
  have e1 : ("Leaf(" : String).toList = 'L' :: "eaf(".toList := by decide
  have e2 : ("Rule(" : String).toList = 'R' :: "ule(".toList := by decide
  rw [String.toList_append, String.toList_append, String.toList_append, String.toList_append, e1, e2] at this
  simp at this

theorem endsAt_flat {num : U64 → String} {sort : List String → List String} {lv : Nat} {x : List String} (hx : EndsAt lv x) (child : String → Tree)
    (ks : List String) (hk : ∀ k ∈ ks, k.toList.head? ≠ some '\t') :
    EndsAt (lv + 1) ((ks.flatMap fun k => (tabs (lv + 1) ++ k) :: treeLines num sort (child k) (lv + 1)) ++ x) := by
  intro l hl
  cases ks with
  | nil =>
    obtain ⟨m, r, h1, h2⟩ := hx l hl
    exact ⟨m, r, by omega, h2⟩
  | cons k ks =>
    simp only [List.flatMap_cons, List.cons_append, List.head?_cons, Option.some.injEq] at hl
    exact ⟨lv + 1, k, Nat.le_refl _, hl.symm, hk k List.mem_cons_self⟩

theorem treeLines_inj {num : U64 → String} {sort : List String → List String} (hs : SortsStrings sort) (t : Tree) :
    ∀ (u : Tree) (lv : Nat) (x y : List String), t.Plain → u.Plain → EndsAt lv x → EndsAt lv y →
      treeLines num sort t lv ++ x = treeLines num sort u lv ++ y → t.Alike num u ∧ x = y := by
  induction t with
  | leaf d c =>
    intro u lv x y hp hu hx hy h
    cases u with
    | leaf d' c' =>
      simp only [treeLines, List.cons_append, List.nil_append, List.cons.injEq] at h
      exact ⟨wrap_inj (str_cancel h.1), h.2⟩
    | split d' c' r' keys' child' =>
      simp only [treeLines, List.cons_append, List.nil_append, List.cons.injEq] at h
      exact absurd (str_cancel h.1) (leaf_ne_rule _ _)
  | split d c r keys child ih =>
    intro u lv x y hp hu hx hy h
    cases u with
    | leaf d' c' =>
      simp only [treeLines, List.cons_append, List.nil_append, List.cons.injEq] at h
      exact absurd (str_cancel h.1).symm (leaf_ne_rule _ _)
    | split d' c' r' keys' child' =>
      rw [treeLines, treeLines, List.cons_append, List.cons_append, List.cons.injEq] at h
      obtain ⟨h0, h⟩ := h
      have flat : ∀ ks ks' : List String, (∀ k ∈ ks, k ∈ keys) → (∀ k ∈ ks', k ∈ keys') →
          (ks.flatMap fun k => (tabs (lv + 1) ++ k) :: treeLines num sort (child k) (lv + 1)) ++ x =
            (ks'.flatMap fun k => (tabs (lv + 1) ++ k) :: treeLines num sort (child' k) (lv + 1)) ++ y →
          ks = ks' ∧ (∀ k ∈ ks, (child k).Alike num (child' k)) ∧ x = y := by
        intro ks
        induction ks with
        | nil =>
          intro ks' _ hk' h
          cases ks' with
          | nil => exact ⟨rfl, fun k hk => (List.not_mem_nil hk).elim, by simpa using h⟩
          | cons k' ks' =>
            simp only [List.flatMap_nil, List.nil_append, List.flatMap_cons, List.cons_append] at h
            obtain ⟨m, q, h1, h2, h3⟩ := hx (tabs (lv + 1) ++ k') (by rw [h]; rfl)
            exact absurd h2.symm (tabs_apart (by omega) h3)
        | cons k ks ihk =>
          intro ks' hk hk' h
          cases ks' with
          | nil =>
            simp only [List.flatMap_nil, List.nil_append, List.flatMap_cons, List.cons_append] at h
            obtain ⟨m, q, h1, h2, h3⟩ := hy (tabs (lv + 1) ++ k) (by rw [← h]; rfl)
            exact absurd h2.symm (tabs_apart (by omega) h3)
          | cons k' ks' =>
            simp only [List.flatMap_cons, List.cons_append, List.cons.injEq, List.append_assoc] at h
            obtain ⟨h1, h⟩ := h
            have e := str_cancel h1
            subst e
            obtain ⟨a1, h⟩ := ih k (child' k) (lv + 1) _ _ (hp.2 k (hk k List.mem_cons_self)).2 (hu.2 k (hk' k List.mem_cons_self)).2
              (endsAt_flat hx child ks fun q hq => (hp.2 q (hk q (List.mem_cons_of_mem _ hq))).1.2)
              (endsAt_flat hy child' ks' fun q hq => (hu.2 q (hk' q (List.mem_cons_of_mem _ hq))).1.2) h
            obtain ⟨b1, b2, b3⟩ := ihk ks' (fun q hq => hk q (List.mem_cons_of_mem _ hq)) (fun q hq => hk' q (List.mem_cons_of_mem _ hq)) h
            refine ⟨by rw [b1], ?_, b3⟩
            intro q hq
            rcases List.mem_cons.1 hq with rfl | hq
            · exact a1
            · exact b2 q hq
      obtain ⟨f1, f2, f3⟩ := flat (sort keys) (sort keys') (fun k hk => (hs.1 _).subset hk) (fun k hk => (hs.1 _).subset hk) h
      refine ⟨⟨wrap_inj (str_cancel h0), ?_, fun k hk => f2 k ((hs.1 _).symm.subset hk)⟩, f3⟩
      exact ((hs.1 keys).symm.trans (by rw [f1])).trans (hs.1 keys')

theorem alike_text {num : U64 → String} {sort : List String → List String} (hs : SortsStrings sort) (t : Tree) :
    ∀ (u : Tree) (lv : Nat), t.Alike num u → nestedString num sort t lv = nestedString num sort u lv := by
  induction t with
  | leaf d c =>
    intro u lv h
    cases u with
    | leaf d' c' =>
      have h : c = c' := h
      subst h
      rfl
    | split => exact h.elim
  | split d c r keys child ih =>
    intro u lv h
    cases u with
    | leaf => exact h.elim
    | split d' c' r' keys' child' =>
      obtain ⟨h1, h2, h3⟩ := h
      rw [nestedString, nestedString, h1, hs.2 _ _ h2]
      congr 2
      apply List.map_congr_left
      intro k hk
      rw [ih k (child' k) (lv + 1) (h3 k (h2.symm.subset ((hs.1 _).subset hk)))]

end Golearn
