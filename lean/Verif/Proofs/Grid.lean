import Verif.Model.Grid
import Verif.Proofs.Accept

namespace Golearn

theorem mapRes_eq_ok {α β : Type} (f : α → Res β) (l : List α) (out : List β) :
    mapRes f l = Res.ok out ↔ List.Forall₂ (fun a b => f a = Res.ok b) l out := by
  induction l generalizing out with
  | nil =>
    simp only [mapRes, Res.ok.injEq]
    constructor
    · rintro rfl; exact List.Forall₂.nil
    · intro h; cases h; rfl
  | cons a as ih =>
    simp only [mapRes, Res.bind_eq_ok]
    constructor
    · rintro ⟨b, hb, bs, hbs, h⟩
      simp only [Res.ok.injEq] at h
      subst h
      exact List.Forall₂.cons hb ((ih bs).1 hbs)
    · intro h
      cases h with
      | cons hb hbs => exact ⟨_, hb, _, (ih _).2 hbs, rfl⟩

theorem mapRes_of_ok {α β : Type} (f : α → Res β) (g : α → β) (l : List α)
    (h : ∀ a ∈ l, f a = Res.ok (g a)) : mapRes f l = Res.ok (l.map g) := by
  induction l with
  | nil => rfl
  | cons a as ih =>
    simp only [mapRes, h a (by simp), Res.bind_ok, ih (fun b hb => h b (by simp [hb])), List.map_cons]

theorem mapRes_congr {α β : Type} (f g : α → Res β) (l : List α) (h : ∀ a ∈ l, f a = g a) :
    mapRes f l = mapRes g l := by
  induction l with
  | nil => rfl
  | cons a as ih =>
    simp only [mapRes, h a (by simp), ih (fun b hb => h b (by simp [hb]))]

/-- A callback that always continues sees every row, in the given order. -/
theorem mapOver_all {σ : Type} (vals : Nat → Res (List Bytes)) (w : Nat → List Bytes)
    (cb : σ → List Bytes → Nat → Res (σ × Ctl)) (f : σ → List Bytes → Nat → σ) (order : List Nat)
    (hv : ∀ r ∈ order, vals r = Res.ok (w r))
    (hcb : ∀ s, ∀ r ∈ order, cb s (w r) r = Res.ok (f s (w r) r, Ctl.cont)) (s : σ) :
    mapOver vals cb s order = Res.ok (order.foldl (fun s r => f s (w r) r) s, false) := by
  induction order generalizing s with
  | nil => rfl
  | cons r rs ih =>
    simp only [mapOver, hv r (by simp), Res.bind_ok, hcb s r (by simp), List.foldl_cons]
    exact ih (fun q hq => hv q (by simp [hq])) (fun s q hq => hcb s q (by simp [hq])) _

end Golearn
