import Verif.Proofs.Convert

/-! # Lemmas about the attributes that the conversion filters make -/

namespace Golearn

open Conv

/-- What the two training loops do with each kind of column. -/
structure TrainsKeep (mk : String → AttrBody) (fresh : Nat → Nat) (keep : Attr → Bool) (tr : Conv → Nat → List Attr → Conv) : Prop where
  nil : ∀ c k, tr c k [] = c
  cat : ∀ c k a rest name vals, a.body = .cat name vals →
    tr c k (a :: rest) = tr (trainCat mk fresh c k a name vals).1 (trainCat mk fresh c k a name vals).2 rest
  same : ∀ c k a rest, a.isCat = false → keep a = true → tr c k (a :: rest) = tr { c with converted := c.converted ++ [⟨a, a⟩] } k rest
  make : ∀ c k a rest, a.isCat = false → keep a = false →
    tr c k (a :: rest) = tr { c with converted := c.converted ++ [⟨a, ⟨fresh k, mk a.name⟩⟩] } (k + 1) rest

theorem keeps_binary (fresh : Nat → Nat) : TrainsKeep .bin fresh Attr.isBin (trainBinary fresh) := by
  refine ⟨fun c k => rfl, ?_, ?_, ?_⟩
  · intro c k a rest name vals h
    rw [trainBinary, h]
  all_goals
    intro c k a rest h h'
    obtain ⟨p, b⟩ := a
    cases b <;> simp_all [Attr.isCat, Attr.isBin, trainBinary, Attr.name]

theorem keeps_float (fresh : Nat → Nat) : TrainsKeep (fun n => .float n 2) fresh Attr.isFloat (trainFloat fresh) := by
  refine ⟨fun c k => rfl, ?_, ?_, ?_⟩
  · intro c k a rest name vals h
    rw [trainFloat, h]
  all_goals
    intro c k a rest h h'
    obtain ⟨p, b⟩ := a
    cases b <;> simp_all [Attr.isCat, Attr.isFloat, trainFloat, Attr.name]

theorem oneHot_bodies (mk : String → AttrBody) (fresh : Nat → Nat) (name : String) (k : Nat) (vals : List String) :
    (oneHot mk fresh name k vals).map Attr.body = vals.map fun v => mk (name ++ "_" ++ v) := by
  induction vals generalizing k with
  | nil => rfl
  | cons v vs ih => simp [oneHot, ih]

theorem oneHot_ptrs (mk : String → AttrBody) (fresh : Nat → Nat) (name : String) (k : Nat) (vals : List String) :
    (oneHot mk fresh name k vals).map Attr.ptr = (List.range' k vals.length).map fresh := by
  induction vals generalizing k with
  | nil => rfl
  | cons v vs ih => simp [oneHot, ih, List.range'_succ]

namespace TrainsKeep

variable {mk : String → AttrBody} {fresh : Nat → Nat} {keep : Attr → Bool} {tr : Conv → Nat → List Attr → Conv}

theorem columns' (T : TrainsKeep mk fresh keep tr) (attrs : List Attr) (c : Conv) (k : Nat) :
    (tr c k attrs).converted.map (fun p => (p.old, p.new.body)) =
      c.converted.map (fun p => (p.old, p.new.body)) ++ attrs.flatMap (fun a => (outputBodies mk keep a).map fun b => (a, b)) := by
  induction attrs generalizing c k with
  | nil => rw [T.nil]; simp
  | cons a rest ih =>
    obtain ⟨p, b⟩ := a
    cases hc : (⟨p, b⟩ : Attr).isCat with
    | true =>
      cases b with
      | float _ _ => simp [Attr.isCat] at hc
      | bin _ => simp [Attr.isCat] at hc
      | cat n vs =>
        rw [T.cat c k _ rest n vs rfl, ih]
        unfold trainCat
        split
        · rename_i hl
          simp [outputBodies, hl]
        · rename_i hl
          have := oneHot_bodies mk fresh n k vs
          simp only [List.map_append, List.map_map, List.flatMap_cons, outputBodies, hl, if_false, List.append_assoc, List.append_cancel_left_eq]
          congr 1
          rw [show ((fun p : FAttr => (p.old, p.new.body)) ∘ fun m => (⟨⟨p, .cat n vs⟩, m⟩ : FAttr)) =
            ((fun b => ((⟨p, .cat n vs⟩ : Attr), b)) ∘ Attr.body) from rfl, ← List.map_map, this, List.map_map]
    | false =>
      have hb : outputBodies mk keep ⟨p, b⟩ = if keep ⟨p, b⟩ then [b] else [mk (Attr.name ⟨p, b⟩)] := by
        cases b <;> simp_all [Attr.isCat, outputBodies]
      cases hk : keep ⟨p, b⟩ with
      | true => rw [T.same c k _ rest hc hk, ih]; simp [hb, hk]
      | false => rw [T.make c k _ rest hc hk, ih]; simp [hb, hk]

theorem columns (T : TrainsKeep mk fresh keep tr) (attrs : List Attr) (c : Conv) (k : Nat) (hc : c = Conv.empty := by rfl) :
    (tr c k attrs).converted.map (fun p => (p.old, p.new.body)) =
      attrs.flatMap (fun a => (outputBodies mk keep a).map fun b => (a, b)) := by
  subst hc
  simpa [Conv.empty] using T.columns' attrs Conv.empty k

theorem distinct' (T : TrainsKeep mk fresh keep tr) (hf : Function.Injective fresh) (attrs : List Attr) (hnd : (attrs.map Attr.ptr).Nodup)
    (hnew : ∀ a ∈ attrs, ∀ i, a.ptr ≠ fresh i) (c : Conv) (k : Nat) (h1 : (c.converted.map fun p => p.new.ptr).Nodup)
    (h2 : ∀ p ∈ c.converted, (∀ a ∈ attrs, p.new.ptr ≠ a.ptr) ∧ ∀ i, k ≤ i → p.new.ptr ≠ fresh i) :
    ((tr c k attrs).converted.map fun p => p.new.ptr).Nodup := by
  induction attrs generalizing c k with
  | nil => rw [T.nil]; exact h1
  | cons a rest ih =>
    simp only [List.map_cons, List.nodup_cons] at hnd
    have hnew' : ∀ a ∈ rest, ∀ i, a.ptr ≠ fresh i := fun b hb => hnew b (List.mem_cons_of_mem _ hb)
    have hold : ∀ p ∈ c.converted, ∀ b ∈ rest, p.new.ptr ≠ b.ptr := fun p hp b hb => (h2 p hp).1 b (List.mem_cons_of_mem _ hb)
    have one : ((c.converted ++ [(⟨a, ⟨fresh k, mk a.name⟩⟩ : FAttr)]).map fun p => p.new.ptr).Nodup := by
      rw [List.map_append, List.nodup_append]
      refine ⟨h1, by simp, ?_⟩
      intro x hx y hy
      obtain ⟨p, hp, rfl⟩ := List.mem_map.1 hx
      simp only [List.map_cons, List.map_nil, List.mem_singleton] at hy
      rw [hy]
      exact (h2 p hp).2 k (le_refl _)
    cases hc : a.isCat with
    | false =>
      cases hk : keep a with
      | true =>
        rw [T.same c k _ rest hc hk]
        apply ih hnd.2 hnew'
        · rw [List.map_append, List.nodup_append]
          refine ⟨h1, by simp, ?_⟩
          intro x hx y hy
          obtain ⟨p, hp, rfl⟩ := List.mem_map.1 hx
          simp only [List.map_cons, List.map_nil, List.mem_singleton] at hy
          rw [hy]
          exact (h2 p hp).1 a (List.mem_cons_self ..)
        · intro p hp
          simp only [List.mem_append, List.mem_singleton] at hp
          rcases hp with hp | rfl
          · exact ⟨hold p hp, (h2 p hp).2⟩
          · refine ⟨?_, fun i _ => hnew a (List.mem_cons_self ..) i⟩
            intro b hb e
            exact hnd.1 (List.mem_map.2 ⟨b, hb, e.symm⟩)
      | false =>
        rw [T.make c k _ rest hc hk]
        apply ih hnd.2 hnew' _ _ one
        intro p hp
        simp only [List.mem_append, List.mem_singleton] at hp
        rcases hp with hp | rfl
        · exact ⟨hold p hp, fun i hi => (h2 p hp).2 i (by omega)⟩
        · refine ⟨fun b hb e => hnew' b hb k e.symm, ?_⟩
          intro i hi e
          have := hf e
          omega
    | true =>
      obtain ⟨q, b⟩ := a
      cases b with
      | float _ _ => simp [Attr.isCat] at hc
      | bin _ => simp [Attr.isCat] at hc
      | cat n vs =>
        rw [T.cat c k _ rest n vs rfl]
        unfold trainCat
        split
        · apply ih hnd.2 hnew' _ _ one
          intro p hp
          simp only [List.mem_append, List.mem_singleton] at hp
          rcases hp with hp | rfl
          · exact ⟨hold p hp, fun i hi => (h2 p hp).2 i (by omega)⟩
          · refine ⟨fun b hb e => hnew' b hb k e.symm, ?_⟩
            intro i hi e
            have := hf e
            omega
        · have hp := oneHot_ptrs mk fresh n k vs
          have hmem : ∀ m ∈ oneHot mk fresh n k vs, ∃ i, k ≤ i ∧ i < k + vs.length ∧ m.ptr = fresh i := by
            intro m hm
            have : m.ptr ∈ (List.range' k vs.length).map fresh := hp ▸ List.mem_map_of_mem hm
            obtain ⟨i, hi, e⟩ := List.mem_map.1 this
            rw [List.mem_range'_1] at hi
            exact ⟨i, hi.1, hi.2, e.symm⟩
          apply ih hnd.2 hnew'
          · simp only [List.map_append, List.map_map, List.nodup_append]
            refine ⟨h1, ?_, ?_⟩
            · rw [show ((fun p : FAttr => p.new.ptr) ∘ fun m => (⟨⟨q, .cat n vs⟩, m⟩ : FAttr)) = Attr.ptr from rfl, hp]
              exact (List.nodup_range').map hf
            · intro x hx y hy
              obtain ⟨p, hp, rfl⟩ := List.mem_map.1 hx
              obtain ⟨m, hm, rfl⟩ := List.mem_map.1 hy
              obtain ⟨i, hi, _, e⟩ := hmem m hm
              simp only [Function.comp_apply]
              rw [e]
              exact (h2 p hp).2 i hi
          · intro p hp
            simp only [List.mem_append, List.mem_map] at hp
            rcases hp with hp | ⟨m, hm, rfl⟩
            · exact ⟨hold p hp, fun i hi => (h2 p hp).2 i (by simp only at hi; omega)⟩
            · obtain ⟨i, _, hi, e⟩ := hmem m hm
              simp only
              rw [e]
              refine ⟨fun b hb e' => hnew' b hb i e'.symm, ?_⟩
              intro j hj e'
              have := hf e'
              omega

theorem distinct (T : TrainsKeep mk fresh keep tr) (hf : Function.Injective fresh) (attrs : List Attr) (hnd : (attrs.map Attr.ptr).Nodup)
    (hnew : ∀ a ∈ attrs, ∀ i, a.ptr ≠ fresh i) : ((tr Conv.empty 0 attrs).converted.map fun p => p.new.ptr).Nodup :=
  T.distinct' hf attrs hnd hnew Conv.empty 0 (by simp [Conv.empty]) (by intro p hp; simp [Conv.empty] at hp)

end TrainsKeep

end Golearn
