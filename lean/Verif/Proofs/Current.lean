import Verif.Proofs.DenseTable
import Verif.Model.Csv
import Mathlib.Data.List.Nodup

/-! # Attributes whose values have been added later -/

namespace Golearn

theorem current_name (env : ValEnv) (a : Attr) : (a.current env).name = a.name := by
  obtain ⟨p, b⟩ := a
  cases b <;> rfl

theorem current_ptr (env : ValEnv) (a : Attr) : (a.current env).ptr = a.ptr := by
  obtain ⟨p, b⟩ := a
  cases b <;> rfl

theorem current_isBin (env : ValEnv) (a : Attr) : (a.current env).isBin = a.isBin := by
  obtain ⟨p, b⟩ := a
  cases b <;> rfl

theorem current_isCat (env : ValEnv) (a : Attr) : (a.current env).isCat = a.isCat := by
  obtain ⟨p, b⟩ := a
  cases b <;> rfl

theorem current_isFloat (env : ValEnv) (a : Attr) : (a.current env).isFloat = a.isFloat := by
  obtain ⟨p, b⟩ := a
  cases b <;> rfl

theorem current_defaultKind (env : ValEnv) (a : Attr) : defaultKind (a.current env) = defaultKind a := by
  unfold defaultKind
  rw [current_isBin]

theorem current_allAttributes (env : ValEnv) (d : Dense) : (d.current env).allAttributes = d.allAttributes.map (Attr.current env) := by
  simp [Dense.allAttributes, Dense.current, List.flatMap_map, List.map_flatMap]

theorem current_allClassAttributes (env : ValEnv) (d : Dense) :
    (d.current env).allClassAttributes = d.allClassAttributes.map (Attr.current env) := by
  simp [Dense.allClassAttributes, Dense.current, List.filter_map, Function.comp_def]

/-- A specification for the current attribute. -/
def Spec.current (env : ValEnv) (s : Spec) : Spec := { s with attr := s.attr.current env }

theorem current_get (env : ValEnv) (d : Dense) (s : Spec) (r : Nat) : (d.current env).get (s.current env) r = d.get s r := by
  unfold Dense.get
  show (match s.pond with | none => _ | some id => _) = _
  cases s.pond with
  | none => rfl
  | some id =>
    simp only [Dense.current, List.getElem?_map]
    cases d.ags[id]? with
    | none => rfl
    | some g =>
      simp only [Option.map_some]
      have ho : ∀ c r, ({ g with attrs := g.attrs.map (Attr.current env) } : Group).offset c r = g.offset c r := by
        intro c r
        unfold Group.offset Group.rowSize
        simp
      unfold Group.get
      simp only [Spec.current, ho]
      rfl

theorem current_kindOf (env : ValEnv) (d : Dense) (s : Spec) : kindOf (d.current env) (s.current env) = kindOf d s := by
  unfold kindOf
  simp only [Spec.current, Dense.current, List.getElem?_map]
  cases s.pond with
  | none => rfl
  | some id =>
    simp only [Option.bind_some]
    cases d.ags[id]? <;> rfl

theorem current_equals_name {a b : Attr} (h : a.equals b = true) : a.name = b.name := by
  obtain ⟨p, x⟩ := a
  obtain ⟨q, y⟩ := b
  cases x <;> cases y <;> simp_all [Attr.equals, Attr.name]

theorem names_distinct' {l : List Attr} (h : (l.map Attr.name).Nodup) : l.Pairwise (fun a b => a.equals b = false) := by
  rw [List.Nodup, List.pairwise_map] at h
  refine h.imp ?_
  intro a b hab
  rw [← Bool.not_eq_true]
  exact fun e => hab (current_equals_name e)

theorem DenseOK.current {n : Nat} {d : Dense} (D : DenseOK n d) (hn : (d.allAttributes.map Attr.name).Nodup) (env : ValEnv) :
    DenseOK n (d.current env) := by
  obtain ⟨_, W, hs, I, K⟩ := D
  refine ⟨?_, W, hs.map (Spec.current env), ⟨I.hrows, ?_, I.unfixed, ?_, ?_, ?_, ?_, ?_, ?_, ?_⟩, ?_⟩
  · show (d.current env).allAttributes.Pairwise _
    apply names_distinct'
    rw [current_allAttributes, List.map_map]
    have : Attr.name ∘ Attr.current env = Attr.name := funext fun a => current_name env a
    rw [this]
    exact hn
  · intro id g hg
    simp only [Dense.current, List.getElem?_map, Option.map_eq_some_iff] at hg
    obtain ⟨g0, h0, rfl⟩ := hg
    have := I.sized id g0 h0
    unfold Group.Sized Group.rowSize at this ⊢
    simpa using this
  · intro id g hg
    simp only [Dense.current, List.getElem?_map, Option.map_eq_some_iff] at hg
    obtain ⟨g0, h0, rfl⟩ := hg
    exact I.kindpos id g0 h0
  · intro name id h
    obtain ⟨g, hg⟩ := I.agmap name id h
    exact ⟨_, by simp only [Dense.current, List.getElem?_map]; rw [hg]; rfl⟩
  · intro h s hh
    rw [List.getElem?_map, Option.map_eq_some_iff] at hh
    obtain ⟨s0, h0, rfl⟩ := hh
    obtain ⟨id, g, h1, h2, h3⟩ := I.valid h s0 h0
    refine ⟨id, { g with attrs := g.attrs.map (Attr.current env) }, h1, ?_, ?_⟩
    · simp only [Dense.current, List.getElem?_map]
      rw [h2]
      rfl
    · simp only [Spec.current, List.getElem?_map, h3, Option.map_some]
  · intro h h' s s' hh hh' e1 e2
    rw [List.getElem?_map, Option.map_eq_some_iff] at hh hh'
    obtain ⟨s0, h0, rfl⟩ := hh
    obtain ⟨s1, h1, rfl⟩ := hh'
    exact I.inj h h' s0 s1 h0 h1 e1 e2
  · intro id g p a hg ha
    simp only [Dense.current, List.getElem?_map, Option.map_eq_some_iff] at hg
    obtain ⟨g0, h0, rfl⟩ := hg
    simp only [List.getElem?_map, Option.map_eq_some_iff] at ha
    obtain ⟨a0, h1, rfl⟩ := ha
    obtain ⟨h, hh⟩ := I.complete id g0 p a0 h0 h1
    exact ⟨h, by rw [List.getElem?_map, hh]; rfl⟩
  · show (d.current env).allAttributes.Perm _
    rw [current_allAttributes, List.map_map]
    have : Spec.attr ∘ Spec.current env = Attr.current env ∘ Spec.attr := rfl
    rw [this, ← List.map_map]
    exact I.listed.map _
  · intro h s r hh hr
    rw [List.getElem?_map, Option.map_eq_some_iff] at hh
    obtain ⟨s0, h0, rfl⟩ := hh
    obtain ⟨k, h1, h2⟩ := I.cells h s0 r h0 hr
    exact ⟨k, by rw [current_kindOf]; exact h1, by rw [current_get]; exact h2⟩
  · intro h s hh
    rw [List.getElem?_map, Option.map_eq_some_iff] at hh
    obtain ⟨s0, h0, rfl⟩ := hh
    rw [current_kindOf]
    show _ = some (defaultKind (s0.attr.current env))
    rw [current_defaultKind]
    exact K h s0 h0

theorem current_equals_refl (a : Attr) : a.equals a = true := by
  obtain ⟨p, x⟩ := a
  cases x <;> simp [Attr.equals, Attr.sameValues_iff]

theorem inj_on_names {l : List Attr} (hn : (l.map Attr.name).Nodup) {a b : Attr} (ha : a ∈ l) (hb : b ∈ l)
    (h : a.name = b.name) : a = b :=
  List.inj_on_of_nodup_map hn ha hb h

theorem findInGroup_current (env : ValEnv) (id : Nat) (a : Attr) :
    ∀ (as : List Attr) (j : Nat), (∀ b ∈ as, (b.current env).equals (a.current env) = b.equals a) →
      Dense.findInGroup id (a.current env) (as.map (Attr.current env)) j =
        (Dense.findInGroup id a as j).map (Spec.current env) := by
  intro as
  induction as with
  | nil => intro j _; rfl
  | cons b bs ih =>
    intro j h
    rw [List.map_cons, Dense.findInGroup, Dense.findInGroup, h b (by simp)]
    cases b.equals a with
    | true => rfl
    | false => exact ih (j + 1) fun c hc => h c (by simp [hc])

theorem findInGroups_current (env : ValEnv) (a : Attr) :
    ∀ (gs : List Group) (i : Nat), (∀ b ∈ gs.flatMap (·.attrs), (b.current env).equals (a.current env) = b.equals a) →
      Dense.findInGroups (a.current env) (gs.map fun g => { g with attrs := g.attrs.map (Attr.current env) }) i =
        (Dense.findInGroups a gs i).map (Spec.current env) := by
  intro gs
  induction gs with
  | nil => intro i _; rfl
  | cons g gs ih =>
    intro i h
    rw [List.map_cons, Dense.findInGroups, Dense.findInGroups,
      findInGroup_current env i a g.attrs 0 fun b hb => h b (by simp [hb])]
    cases Dense.findInGroup i a g.attrs 0 with
    | some s => rfl
    | none => exact ih (i + 1) fun c hc => h c (by rw [List.flatMap_cons, List.mem_append]; exact Or.inr hc)

theorem current_getAttribute (env : ValEnv) {d : Dense} (hn : (d.allAttributes.map Attr.name).Nodup) {a : Attr}
    (ha : a ∈ d.allAttributes) :
    (d.current env).getAttribute (a.current env) = (d.getAttribute a).map (Spec.current env) := by
  have h : ∀ b ∈ d.ags.flatMap (·.attrs), (b.current env).equals (a.current env) = b.equals a := by
    intro b hb
    by_cases e : b = a
    · rw [e, current_equals_refl, current_equals_refl]
    · have hne : b.name ≠ a.name := by
        intro h
        exact e (inj_on_names hn hb ha h)
      have h1 : b.equals a = false := by
        rw [← Bool.not_eq_true]; exact fun h => hne (current_equals_name h)
      have h2 : (b.current env).equals (a.current env) = false := by
        rw [← Bool.not_eq_true]
        intro h
        have := current_equals_name h
        rw [current_name, current_name] at this
        exact hne this
      rw [h1, h2]
  unfold Dense.getAttribute
  show (match Dense.findInGroups (a.current env) (d.ags.map fun g => { g with attrs := g.attrs.map (Attr.current env) }) 0 with
    | some s => Res.ok s | none => Res.err) = _
  rw [findInGroups_current env a d.ags 0 h]
  cases Dense.findInGroups a d.ags 0 <;> rfl

theorem current_cell (env : ValEnv) {d : Dense} (hn : (d.allAttributes.map Attr.name).Nodup) {a : Attr}
    (ha : a ∈ d.allAttributes) (r : Nat) : (Grid.dense (d.current env)).cell (a.current env) r = (Grid.dense d).cell a r := by
  unfold Grid.cell
  show (match (d.current env).getAttribute (a.current env) with
    | .ok s => (match (d.current env).get s r with | .ok v => v | _ => []) | _ => []) = _
  rw [current_getAttribute env hn ha]
  show _ = (match d.getAttribute a with | .ok s => (match d.get s r with | .ok v => v | _ => []) | _ => [])
  cases d.getAttribute a with
  | ok s => simp only [Res.map_ok, current_get]
  | err => rfl
  | panic => rfl

end Golearn
