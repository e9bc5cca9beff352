import Verif.Model.Serialize
import Verif.Props.C28

/-! # C30: attribute serialisation round-trips

`new(CategoricalAttribute)` (as used by the CSV reader) has a `nil` slice of values, which is written
as JSON `null`; reading that back fails the type assertion of base/categorical.go:34 and panics. -/

namespace Golearn

theorem jsonStrings_map (vs : List String) : jsonStrings (vs.map Json.str) = Res.ok vs := by
  induction vs with
  | nil => rfl
  | cons v vs ih => simp [jsonStrings, ih]

/-- Outside the case of a `nil` slice of values, reading back a written attribute gives the same
attribute (the precision of a float attribute having gone through a `float64`). -/
theorem deserialize_attrToJson (viaFloat : Int → Int) (nilVals : Bool) (b : AttrBody)
    (h : ∀ n, ¬ (b = .cat n [] ∧ nilVals = true)) :
    deserializeAttr viaFloat (attrToJson nilVals b) = Res.ok (match b with
      | .float n p => .float n (viaFloat p)
      | .cat n vs => .cat n vs
      | .bin n => .bin n) := by
  cases b with
  | float n p => simp [attrToJson, deserializeAttr, jsonStringField, Json.field]
  | bin n => simp [attrToJson, deserializeAttr, jsonStringField, Json.field]
  | cat n vs =>
    have hc : (vs.isEmpty && nilVals) = false := by
      cases vs with
      | nil =>
        have := h n
        simpa using this
      | cons _ _ => rfl
    simp [attrToJson, deserializeAttr, jsonStringField, Json.field, hc, jsonStrings_map]

/-- For every attribute, of any type, name and values, except a categorical attribute whose slice
of values is `nil`: serialising and deserialising succeeds, the result equals the original in both
directions of `Equals`, and is the very same attribute if its precision is representable. -/
theorem C30_attribute_roundtrip_partial (viaFloat : Int → Int) (nilVals : Bool) (b : AttrBody)
    (h : ∀ n, ¬ (b = .cat n [] ∧ nilVals = true)) (p q : Nat) :
    ∃ b', deserializeAttr viaFloat (attrToJson nilVals b) = Res.ok b' ∧
      (Attr.mk p b').equals (Attr.mk q b) = true ∧ (Attr.mk q b).equals (Attr.mk p b') = true ∧
      ((∀ n k, b = .float n k → viaFloat k = k) → b' = b) := by
  refine ⟨_, deserialize_attrToJson viaFloat nilVals b h, ?_⟩
  have key : (Attr.mk p (match b with
      | .float n p => .float n (viaFloat p)
      | .cat n vs => .cat n vs
      | .bin n => .bin n)).equals (Attr.mk q b) = true := by
    cases b with
    | float n k => simp [Attr.equals]
    | bin n => simp [Attr.equals]
    | cat n vs => exact C28_equals_refl ⟨p, .cat n vs⟩
  refine ⟨key, C28_equals_symm _ _ key, ?_⟩
  intro hk
  cases b with
  | float n k => simp [hk n k rfl]
  | bin n => rfl
  | cat n vs => rfl

/-- The same for a list of attributes. -/
theorem C30_attributes_roundtrip_partial (viaFloat : Int → Int) (nilVals : Bool) (bs : List AttrBody)
    (h : ∀ b ∈ bs, ∀ n, ¬ (b = .cat n [] ∧ nilVals = true))
    (hk : ∀ n k, AttrBody.float n k ∈ bs → viaFloat k = k) :
    deserializeAttrs viaFloat (.arr (bs.map (attrToJson nilVals))) = Res.ok bs := by
  unfold deserializeAttrs
  induction bs with
  | nil => rfl
  | cons b bs ih =>
    obtain ⟨b', e, _, _, e'⟩ := C30_attribute_roundtrip_partial viaFloat nilVals b
      (h b (by simp)) 0 0
    have := e' (by intro n k hb; exact hk n k (by simp [← hb]))
    subst this
    simp only [List.map_cons, mapRes, e, Res.bind_ok]
    simp only at ih
    rw [ih (fun b hb => h b (by simp [hb])) (fun n k hb => hk n k (by simp [hb]))]
    rfl

/-- The full property: every attribute round-trips. -/
def AttributesRoundTrip : Prop :=
  ∀ (viaFloat : Int → Int) (nilVals : Bool) (b : AttrBody), ∃ b',
    deserializeAttr viaFloat (attrToJson nilVals b) = Res.ok b' ∧
      (Attr.mk 0 b').equals (Attr.mk 1 b) = true

/-- It is false of the code: a `new(CategoricalAttribute)` that has not seen a value makes
`DeserializeAttribute` panic. -/
theorem C30_nil_values_panic (viaFloat : Int → Int) (name : String) :
    deserializeAttr viaFloat (attrToJson true (.cat name [])) = Res.panic := by
  simp [attrToJson, deserializeAttr, jsonStringField, Json.field]

theorem C30_roundtrip_fails : ¬ AttributesRoundTrip := by
  intro H
  obtain ⟨b', h, _⟩ := H id true (.cat "c" [])
  rw [C30_nil_values_panic] at h
  cases h

/-- Three attributes, one of each type, meeting the hypotheses. -/
example : deserializeAttrs id (.arr ([.float "x" 2, .cat "c" ["p", "q"], .bin "b"].map
    (attrToJson true))) = Res.ok [.float "x" 2, .cat "c" ["p", "q"], .bin "b"] :=
  C30_attributes_roundtrip_partial id true _ (by simp) (by simp)

end Golearn
