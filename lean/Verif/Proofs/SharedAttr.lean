import Verif.Spec.SharedAttr
import Verif.Proofs.Predict
import Verif.Props.C84

namespace Golearn

theorem AttrBody.grows_refl (b : AttrBody) : b.grows b := by
  cases b <;> simp [AttrBody.grows]

theorem AttrBody.grows_trans {a b c : AttrBody} (h : a.grows b) (k : b.grows c) : a.grows c := by
  cases a <;> cases b <;> simp only [AttrBody.grows] at h <;> try (cases h; done)
  · rw [h]; exact k
  · cases c <;> simp only [AttrBody.grows] at k ⊢ <;> try (cases k; done)
    exact ⟨h.1.trans k.1, h.2.trans k.2⟩
  · rw [h]; exact k

theorem intern_grows (o : Objs) (p : Nat) (s : String) (q : Nat) : (o q).grows (o.intern p s q) := by
  unfold Objs.intern
  cases h : o p with
  | cat n vs =>
    by_cases e : q = p
    · subst e
      simp only [if_true, h]
      exact ⟨rfl, (catIntern_spec vs s).1⟩
    · simp only [if_neg e]
      exact AttrBody.grows_refl _
  | float => exact AttrBody.grows_refl _
  | bin => exact AttrBody.grows_refl _

theorem interns_grow (l : List (Nat × String)) : ∀ (o : Objs) (q : Nat), (o q).grows (o.interns l q) := by
  induction l with
  | nil => intro o q; exact AttrBody.grows_refl _
  | cons x l ih => intro o q; exact AttrBody.grows_trans (intern_grows o x.1 x.2 q) (ih _ q)

theorem AttrBody.grows_name {p : Nat} {a b : AttrBody} (h : a.grows b) : (Attr.mk p a).name = (Attr.mk p b).name := by
  cases a <;> cases b <;> simp_all [AttrBody.grows, Attr.name]

theorem AttrBody.grows_text {p : Nat} {a b : AttrBody} (h : a.grows b) (fo : FloatOps) {v : Bytes} {t : String}
    (ht : (Attr.mk p a).getString fo v = Res.ok t) : (Attr.mk p b).getString fo v = Res.ok t := by
  cases a <;> cases b <;> simp_all [AttrBody.grows, Attr.getString]
  exact catGetString_mono h.2 ht

theorem equals_name {a b : Attr} (h : a.equals b = true) : a.name = b.name := by
  unfold Attr.equals at h
  unfold Attr.name
  cases ha : a.body <;> cases hb : b.body <;> simp_all

/-- Which attributes of a list are found. -/
def findBy (P : Attr → Bool) (id : Nat) : List Attr → Nat → Option Spec
  | [], _ => none
  | a :: as, j => if P a then some ⟨some id, j, a⟩ else findBy P id as (j + 1)

def findByGroups (P : Attr → Bool) : List Group → Nat → Option Spec
  | [], _ => none
  | g :: gs, i => match findBy P i g.attrs 0 with
    | some s => some s
    | none => findByGroups P gs (i + 1)

theorem findBy_now (o : Objs) (b : Attr) (id : Nat) (as : List Attr) : ∀ j,
    Dense.findInGroup id b (as.map (Attr.now o)) j = (findBy (fun x => (x.now o).equals b) id as j).map (Spec.now o) := by
  induction as with
  | nil => intro j; rfl
  | cons a as ih =>
    intro j
    rw [List.map_cons, Dense.findInGroup, findBy]
    cases h : (a.now o).equals b with
    | true => simp [Spec.now]
    | false => simpa using ih (j + 1)

theorem findByGroups_now (o : Objs) (b : Attr) (gs : List Group) : ∀ i,
    Dense.findInGroups b (gs.map fun g => { g with attrs := g.attrs.map (Attr.now o) }) i =
      (findByGroups (fun x => (x.now o).equals b) gs i).map (Spec.now o) := by
  induction gs with
  | nil => intro i; rfl
  | cons g gs ih =>
    intro i
    rw [List.map_cons, Dense.findInGroups, findByGroups]
    simp only [findBy_now]
    cases findBy (fun x => (x.now o).equals b) i g.attrs 0 with
    | some s => rfl
    | none => exact ih (i + 1)

theorem findBy_congr {P Q : Attr → Bool} {id : Nat} {as : List Attr} (h : ∀ x ∈ as, P x = Q x) : ∀ j, findBy P id as j = findBy Q id as j := by
  induction as with
  | nil => intro j; rfl
  | cons a as ih =>
    intro j
    rw [findBy, findBy, h a (by simp), ih fun x hx => h x (by simp [hx])]

theorem findByGroups_congr {P Q : Attr → Bool} {gs : List Group} (h : ∀ g ∈ gs, ∀ x ∈ g.attrs, P x = Q x) :
    ∀ i, findByGroups P gs i = findByGroups Q gs i := by
  induction gs with
  | nil => intro i; rfl
  | cons g gs ih =>
    intro i
    rw [findByGroups, findByGroups, findBy_congr (h g (by simp)), ih fun g' hg' => h g' (by simp [hg'])]

def findSpecBy (P : Attr → Bool) : List Spec → Option Spec
  | [] => none
  | s :: ss => if P s.attr then some s else findSpecBy P ss

theorem findSpecBy_now (o : Objs) (b : Attr) (ss : List Spec) :
    Grid.findSpec (ss.map (Spec.now o)) b = (findSpecBy (fun x => (x.now o).equals b) ss).map (Spec.now o) := by
  induction ss with
  | nil => rfl
  | cons s ss ih =>
    rw [List.map_cons, Grid.findSpec, findSpecBy]
    show (if (s.attr.now o).equals b = true then _ else _) = _
    cases h : (s.attr.now o).equals b with
    | true => rfl
    | false => simpa using ih

theorem findSpecBy_congr {P Q : Attr → Bool} {ss : List Spec} (h : ∀ s ∈ ss, P s.attr = Q s.attr) : findSpecBy P ss = findSpecBy Q ss := by
  induction ss with
  | nil => rfl
  | cons s ss ih => rw [findSpecBy, findSpecBy, h s (by simp), ih fun x hx => h x (by simp [hx])]

/-- Where an attribute is found does not depend on the time. -/
theorem getAttribute_now (g : Grid) (hg : g.unfiltered) (o o' : Objs) (b b' : Attr)
    (h : ∀ x ∈ g.allAttributes, (x.now o).equals b = (x.now o').equals b') :
    (∃ s : Spec, (g.now o).getAttribute b = Res.ok (s.now o) ∧ (g.now o').getAttribute b' = Res.ok (s.now o')) ∨
    ((g.now o).getAttribute b = Res.err ∧ (g.now o').getAttribute b' = Res.err) := by
  induction g with
  | dense d =>
    have e : findByGroups (fun x => (x.now o).equals b) d.ags 0 = findByGroups (fun x => (x.now o').equals b') d.ags 0 :=
      findByGroups_congr (fun g hg x hx => h x (List.mem_flatMap.2 ⟨g, hg, hx⟩)) 0
    simp only [Grid.now, Grid.getAttribute, Dense.getAttribute, Dense.now, findByGroups_now, e]
    cases findByGroups (fun x => (x.now o').equals b') d.ags 0 with
    | none => exact .inr ⟨rfl, rfl⟩
    | some s => exact .inl ⟨s, rfl, rfl⟩
  | view src as rows cls mask ih =>
    cases as with
    | none => exact ih hg h
    | some ss =>
      have e : findSpecBy (fun x => (x.now o).equals b) ss = findSpecBy (fun x => (x.now o').equals b') ss :=
        findSpecBy_congr (fun s hs => h s.attr (List.mem_map_of_mem hs))
      simp only [Grid.now, Option.map_some, Grid.getAttribute, findSpecBy_now, e]
      cases findSpecBy (fun x => (x.now o').equals b') ss with
      | none => exact .inr ⟨rfl, rfl⟩
      | some s => exact .inl ⟨s, rfl, rfl⟩
  | filt => exact hg.elim

/-- Reading does not depend on the contents of the attributes. -/
theorem get_now (g : Grid) (hg : g.unfiltered) (o o' : Objs) (s : Spec) (r : Nat) : (g.now o').get (s.now o') r = (g.now o).get (s.now o) r := by
  induction g generalizing r with
  | dense d =>
    simp only [Grid.now, Grid.get, Dense.get, Dense.now, Spec.now]
    cases s.pond with
    | none => rfl
    | some id =>
      simp only [List.getElem?_map]
      cases d.ags[id]? with
      | none => rfl
      | some gr => simp [Group.get, Group.offset, Group.rowSize]
  | view src as rows cls mask ih =>
    cases rows with
    | none => exact ih hg r
    | some m =>
      simp only [Grid.now, Grid.get]
      cases m.get? r with
      | none => cases mask <;> simp [ih hg]
      | some q => exact ih hg q
  | filt => exact hg.elim

theorem size_now (g : Grid) (hg : g.unfiltered) (o : Objs) : (g.now o).size = g.size := by
  induction g with
  | dense d => simp [Grid.now, Grid.size, Dense.size, Dense.now, Dense.allAttributes, List.flatMap_map, List.length_flatMap]
  | view src as rows cls mask ih =>
    simp only [Grid.now, Grid.size, ih hg]
    cases as <;> simp
  | filt => exact hg.elim

theorem stays_of_grows (fo : FloatOps) (g : Grid) (hg : g.unfiltered) (o o' : Objs) (hn : g.namesApart o) (h : ∀ p, (o p).grows (o' p)) :
    StaysAsItWas fo g o o' := by
  refine ⟨by rw [size_now g hg, size_now g hg], fun a ha r => ?_⟩
  have hP : ∀ x ∈ g.allAttributes, (x.now o).equals (a.now o) = (x.now o').equals (a.now o') := by
    intro x hx
    by_cases e : x.ptr = a.ptr
    · have e1 : ∀ u : Objs, x.now u = a.now u := fun u => by unfold Attr.now; rw [e]
      rw [e1 o, e1 o', C28_equals_refl, C28_equals_refl]
    · have n1 := hn x hx a ha e
      have n2 : (x.now o').name ≠ (a.now o').name := by
        have k1 : (x.now o).name = (x.now o').name := AttrBody.grows_name (h x.ptr)
        have k2 : (a.now o).name = (a.now o').name := AttrBody.grows_name (h a.ptr)
        rw [← k1, ← k2]; exact n1
      have f1 : (x.now o).equals (a.now o) = false := by
        cases q : (x.now o).equals (a.now o) with
        | false => rfl
        | true => exact absurd (equals_name q) n1
      have f2 : (x.now o').equals (a.now o') = false := by
        cases q : (x.now o').equals (a.now o') with
        | false => rfl
        | true => exact absurd (equals_name q) n2
      rw [f1, f2]
  have hc : (g.now o').cell (a.now o') r = (g.now o).cell (a.now o) r := by
    unfold Grid.cell
    rcases getAttribute_now g hg o o' _ _ hP with ⟨s, e1, e2⟩ | ⟨e1, e2⟩
    · rw [e1, e2]
      simp only [get_now g hg o o' s r]
    · rw [e1, e2]
  exact ⟨hc, fun t ht => by rw [hc]; exact AttrBody.grows_text (h a.ptr) fo ht⟩

/-! ## Predictions -/

theorem catIntern_snd (vs : List String) (s : String) : (catIntern vs s).2 = if s ∈ vs then vs else vs ++ [s] := by
  unfold catIntern
  rw [findValue_eq]
  by_cases h : s ∈ vs <;> simp [h]

theorem setClass_values (fo : FloatOps) (parse : String → Option U64) {d : Dense} {n p : Nat} {nm : String} {vs : List String}
    (h : PredVec d n ⟨p, .cat nm vs⟩) {r : Nat} (hr : r < n) (c : String) :
    ∃ d', setClass fo parse d r c = Res.ok d' ∧ PredVec d' n ⟨p, .cat nm (if c ∈ vs then vs else vs ++ [c])⟩ := by
  obtain ⟨_, _, _, i, i4, _, _⟩ := catIntern_spec vs c
  obtain ⟨d', s1, s2, _⟩ := h.set ⟨p, .cat nm (catIntern vs c).2⟩ hr (v := (catIntern vs c).1) (by rw [i4]; exact packU64_length _)
  refine ⟨d', ?_, by rw [← catIntern_snd]; exact s2⟩
  unfold setClass
  rw [h.classes]
  simp only [h.lookup, Res.orPanic, Res.bind, Attr.fromString]
  exact s1

theorem writeLabels_values (fo : FloatOps) (parse : String → Option U64) (ws : List (Nat × String)) : ∀ {d : Dense} {n p : Nat} {nm : String}
    {vs : List String}, PredVec d n ⟨p, .cat nm vs⟩ → (∀ w ∈ ws, w.1 < n) →
    ∃ d', writeLabels fo parse d ws = Res.ok d' ∧ PredVec d' n ⟨p, .cat nm (vs ++ newTexts vs (ws.map Prod.snd))⟩ := by
  induction ws with
  | nil => intro d n p nm vs h _; exact ⟨d, rfl, by simpa [newTexts] using h⟩
  | cons w ws ih =>
    intro d n p nm vs h hr
    obtain ⟨d1, e1, P1⟩ := setClass_values fo parse h (hr w (by simp)) w.2
    obtain ⟨d2, e2, P2⟩ := ih P1 fun x hx => hr x (by simp [hx])
    refine ⟨d2, by rw [writeLabels, e1]; exact e2, ?_⟩
    rw [List.map_cons, newTexts]
    by_cases hc : w.2 ∈ vs
    · simpa [hc] using P2
    · simpa [hc] using P2

end Golearn
