import Verif.Model.Attr

namespace Golearn
namespace Attr

theorem valuesLoop_iff : ∀ (a b : List String), a.length = b.length →
    (valuesLoop a b = true ↔ a = b)
  | [], [], _ => by simp [valuesLoop]
  | [], _ :: _, h => by simp at h
  | _ :: _, [], h => by simp at h
  | x :: xs, y :: ys, h => by
    have := valuesLoop_iff xs ys (by simpa using h)
    by_cases hxy : x = y
    · subst hxy; simp [valuesLoop, this]
    · simp [valuesLoop, hxy]

theorem sameValues_iff (a b : List String) : sameValues a b = true ↔ a = b := by
  unfold sameValues
  by_cases h : b.length = a.length
  · rw [if_neg (by simp [h])]; exact valuesLoop_iff a b h.symm
  · rw [if_pos (by simpa using h)]
    constructor
    · intro hf; cases hf
    · intro e; subst e; exact absurd rfl h

end Attr
end Golearn
