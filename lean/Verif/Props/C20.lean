import Verif.Props.C18

/-! # C20: attribute-restricted views hide the other attributes -/

namespace Golearn

/-- `v` shows exactly the attributes `attrs` of `src`. -/
structure ShowsOnly (src v : Grid) (attrs : List Attr) : Prop where
  /-- `AllAttributes` lists exactly `attrs` -/
  all : v.allAttributes.Perm attrs
  /-- exactly the attributes equal to one of `attrs` resolve; looking up any other is an error -/
  resolves : ∀ b, (∃ s, v.getAttribute b = Res.ok s) ↔ ∃ a ∈ attrs, a.equals b = true
  hidden : ∀ b, (∀ a ∈ attrs, a.equals b = false) → v.getAttribute b = Res.err
  /-- the class attributes are those of the source that are among `attrs` -/
  classes : ∀ c, c ∈ v.allClassAttributes ↔
    c ∈ src.allClassAttributes ∧ ∃ a ∈ attrs, a.equals c = true
  width : v.size.1 = attrs.length

theorem showsOnly_of {src : Grid} {specs : List Spec} {attrs : List Attr}
    (hp : (specs.map Spec.attr).Perm attrs) (rows : Option (GoMap Nat Nat)) (mask : Bool) :
    ShowsOnly src (.view src (some specs) rows (Grid.classFromSrc (some specs)
      src.allClassAttributes) mask) attrs := by
  have hex : ∀ b, (∃ s ∈ specs, s.attr.equals b = true) ↔ ∃ a ∈ attrs, a.equals b = true := by
    intro b
    constructor
    · rintro ⟨s, h1, h2⟩
      exact ⟨s.attr, hp.subset (List.mem_map.2 ⟨s, h1, rfl⟩), h2⟩
    · rintro ⟨a, h1, h2⟩
      obtain ⟨s, h3, rfl⟩ := List.mem_map.1 (hp.symm.subset h1)
      exact ⟨s, h3, h2⟩
  have hres : ∀ b, (∃ s, (Grid.view src (some specs) rows (Grid.classFromSrc (some specs)
      src.allClassAttributes) mask).getAttribute b = Res.ok s) ↔ ∃ a ∈ attrs, a.equals b = true := by
    intro b
    rw [← hex b, ← findSpec_iff]
    unfold Grid.getAttribute
    cases Grid.findSpec specs b <;> simp
  refine ⟨by simpa [Grid.allAttributes] using hp, hres, ?_, ?_, ?_⟩
  · intro b hb
    have hno : ¬ ∃ s, (Grid.view src (some specs) rows (Grid.classFromSrc (some specs)
        src.allClassAttributes) mask).getAttribute b = Res.ok s := by
      rw [hres]
      rintro ⟨a, h1, h2⟩
      rw [hb a h1] at h2; cases h2
    unfold Grid.getAttribute at hno ⊢
    cases hf : Grid.findSpec specs b with
    | none => rfl
    | some s => rw [hf] at hno; exact absurd ⟨s, rfl⟩ hno
  · intro c
    simp only [Grid.allClassAttributes]
    rw [classFromSrc_mem]
    constructor
    · rintro ⟨h1, h2⟩
      exact ⟨h1, (hex c).1 (h2 specs rfl)⟩
    · rintro ⟨h1, h2⟩
      refine ⟨h1, ?_⟩
      intro sp e
      cases e
      exact (hex c).2 h2
  · simp only [Grid.size]
    rw [← hp.length_eq, List.length_map]

/-- Views built from a list of attributes (with or without a list of rows) show exactly those. -/
theorem C20_restricted_views (src : Grid) (n : Nat) (P : src.Presents n) (attrs : List Attr)
    (hattrs : ∀ a ∈ attrs, a ∈ src.allAttributes) (specs : List Spec)
    (hspecs : src.Resolves attrs specs) (rows : List Nat) :
    ShowsOnly src (Grid.viewFromAttrs src specs) attrs ∧
    ShowsOnly src (Grid.viewFromVisible src rows specs) attrs := by
  obtain ⟨r1, _⟩ := P.resolves hattrs hspecs
  exact ⟨showsOnly_of r1 none false, showsOnly_of r1 _ true⟩

/-- The values of the attributes shown by a view of attributes are the source's. -/
theorem C20_values_intact (src : Grid) (n : Nat) (P : src.Presents n) (hd : src.distinct)
    (attrs : List Attr) (hattrs : ∀ a ∈ attrs, a ∈ src.allAttributes) (specs : List Spec)
    (hspecs : src.Resolves attrs specs) :
    (Grid.viewFromAttrs src specs).Presents n ∧
    ∀ a ∈ attrs, ∀ r, (Grid.viewFromAttrs src specs).cell a r = src.cell a r := by
  obtain ⟨r1, r2⟩ := P.resolves hattrs hspecs
  obtain ⟨h1, h2⟩ := attrs_presents P hd r2
  exact ⟨h1, fun a ha r => h2 a (r1.symm.subset ha) r⟩

section Examples
private def fa : Attr := ⟨0, .float "a" 2⟩
private def fb : Attr := ⟨1, .bin "b"⟩
private def fc : Attr := ⟨2, .cat "c" ["x"]⟩
private def ops1 : List Op :=
  [.add fa, .add fb, .add fc, .addClass fb, .addClass fc, .extend 1]
/-- Three attributes of which two are class attributes; the view keeps one of each. -/
example : ∃ st sp, run 4096 ops1 = Res.ok st ∧ (∀ op ∈ ops1, basicOp op = true) ∧
    (addedAttrs ops1).Pairwise (fun a b => a.equals b = false) ∧
    (Grid.dense st.d).resolveUnsorted [fc, fa] = Res.ok sp ∧
    (Grid.viewFromAttrs (.dense st.d) sp).allClassAttributes = [fc] ∧
    (Grid.viewFromAttrs (.dense st.d) sp).getAttribute fb = Res.err := by
  refine ⟨_, _, rfl, ?_, ?_, rfl, ?_⟩ <;> decide +kernel
end Examples

end Golearn
