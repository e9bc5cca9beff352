import Verif.Spec.Labels
import Verif.Proofs.View
import Verif.Proofs.Swap

namespace Golearn

theorem incr_get (m : GoMap String Nat) (k c : String) :
    ((incr m k).get? c).getD 0 = (m.get? c).getD 0 + if k = c then 1 else 0 := by
  unfold incr
  rw [GoMap.get?_set]
  by_cases h : k = c
  · subst h; simp
  · simp [h]

theorem incr_isSome (m : GoMap String Nat) (k c : String) :
    ((incr m k).get? c).isSome ↔ k = c ∨ (m.get? c).isSome := by
  unfold incr
  rw [GoMap.get?_set]
  by_cases h : k = c
  · subst h; simp
  · simp [h]

theorem incr_sum (m : GoMap String Nat) (k : String) :
    ((incr m k).map Prod.snd).sum = (m.map Prod.snd).sum + 1 := by
  unfold incr
  induction m with
  | nil => simp [GoMap.set, GoMap.get?]
  | cons p ps ih =>
    obtain ⟨k', v⟩ := p
    unfold GoMap.set GoMap.get?
    by_cases h : k' = k
    · simp [h]; omega
    · simp only [if_neg h, List.map_cons, List.sum_cons, ih]; omega

theorem getClass_ok {fo : FloatOps} {g : Grid} {n : Nat} (P : g.Presents n) {a : Attr}
    (hc : g.allClassAttributes = [a]) (ha : a ∈ g.allAttributes) {k : Nat → String}
    (hk : ReadsAs fo g a n k) {r : Nat} (hr : r < n) : getClass fo g r = Res.ok (k r) := by
  obtain ⟨s, h1, _, h3⟩ := P.read a ha
  simp only [getClass, hc, h1, Res.orPanic, Res.bind_ok, h3 r hr, hk r hr]

theorem filter_length_cons (p : Nat → Bool) (i : Nat) (is : List Nat) :
    ((i :: is).filter p).length = (if p i then 1 else 0) + (is.filter p).length := by
  rw [List.filter_cons]
  split <;> simp [*]; omega

theorem classDistLoop_spec {fo : FloatOps} {g : Grid} {k : Nat → String} (rows : List Nat)
    (h : ∀ r ∈ rows, getClass fo g r = Res.ok (k r)) (m : GoMap String Nat) :
    ∃ m', classDistLoop fo g rows m = Res.ok m' ∧
      (∀ c, (m'.get? c).getD 0 = (m.get? c).getD 0 + (rows.filter fun r => k r == c).length) ∧
      (m'.map Prod.snd).sum = (m.map Prod.snd).sum + rows.length ∧
      ∀ c, (m'.get? c).isSome ↔ (m.get? c).isSome ∨ ∃ r ∈ rows, k r = c := by
  induction rows generalizing m with
  | nil => exact ⟨m, rfl, by simp, by simp, by simp⟩
  | cons r rs ih =>
    obtain ⟨m', e1, e2, e3, e4⟩ := ih (fun q hq => h q (by simp [hq])) (incr m (k r))
    refine ⟨m', ?_, ?_, ?_, ?_⟩
    · simp only [classDistLoop, h r (by simp), Res.bind_ok, e1]
    · intro c
      rw [e2 c, incr_get, filter_length_cons]
      by_cases hc : k r = c <;> simp [hc] <;> omega
    · rw [e3, incr_sum, List.length_cons]; omega
    · intro c
      rw [e4 c, incr_isSome]
      simp only [List.mem_cons, exists_eq_or_imp]
      tauto

theorem splitRow_get (ret : GoMap String (GoMap String Nat)) (sv cv s c : String) :
    ((((splitRow ret sv cv).get? s).getD []).get? c).getD 0 =
      ((((ret.get? s).getD []).get? c).getD 0 + if sv = s ∧ cv = c then 1 else 0) := by
  unfold splitRow
  by_cases h : sv = s
  · subst h
    cases hg : ret.get? sv with
    | none =>
      simp only [GoMap.get?_set, if_true, Option.getD_some, incr_get, Option.getD_none, true_and]
    | some m =>
      simp only [GoMap.get?_set, if_true, Option.getD_some, incr_get, true_and]
  · cases hg : ret.get? sv with
    | none => simp [GoMap.get?_set, h]
    | some m => simp [GoMap.get?_set, h]

theorem splitLoop_spec {fo : FloatOps} {g : Grid} {s : Spec} {key : Bytes → Res String}
    {sv cv : Nat → String} (rows : List Nat)
    (h : ∀ r ∈ rows, ∃ v, g.get s r = Res.ok v ∧ key v = Res.ok (sv r) ∧
      getClass fo g r = Res.ok (cv r)) (m : GoMap String (GoMap String Nat)) :
    ∃ m', splitLoop fo g s key rows m = Res.ok m' ∧
      ∀ x c, ((((m'.get? x).getD []).get? c).getD 0) = (((m.get? x).getD []).get? c).getD 0 +
        (rows.filter fun r => sv r == x && cv r == c).length := by
  induction rows generalizing m with
  | nil => exact ⟨m, rfl, by simp⟩
  | cons r rs ih =>
    obtain ⟨v, h1, h2, h3⟩ := h r (by simp)
    obtain ⟨m', e1, e2⟩ := ih (fun q hq => h q (by simp [hq])) (splitRow m (sv r) (cv r))
    refine ⟨m', ?_, ?_⟩
    · simp only [splitLoop, h1, h2, h3, Res.bind_ok, e1]
    · intro x c
      rw [e2 x c, splitRow_get, filter_length_cons]
      by_cases hc : sv r = x <;> by_cases hd : cv r = c <;> simp [hc, hd] <;> omega

/-! ## Decomposition -/

theorem decompose_fold {g : Grid} {specs : List Spec} {s : Spec} {key : Bytes → Res String}
    {k : Nat → String} (order : List Nat) (vals : Nat → Res (List Bytes))
    (h : ∀ r ∈ order, vals r = Res.ok ((specs ++ [s]).map fun t => g.cell t.attr r) ∧
      key (g.cell s.attr r) = Res.ok (k r)) (m : GoMap String (List Nat))
    (hn : (m.map Prod.fst).Nodup) :
    ∃ m', mapOver vals (decomposeCallback key) m order = Res.ok (m', false) ∧
      (m'.map Prod.fst).Nodup ∧
      (∀ c, (m'.get? c).getD [] = (m.get? c).getD [] ++ order.filter fun r => k r == c) ∧
      ∀ c, (m'.get? c).isSome ↔ (m.get? c).isSome ∨ ∃ r ∈ order, k r = c := by
  induction order generalizing m with
  | nil => exact ⟨m, rfl, hn, by simp, by simp⟩
  | cons r rs ih =>
    obtain ⟨h1, h2⟩ := h r (by simp)
    obtain ⟨m', e1, e2, e3, e4⟩ := ih (fun q hq => h q (by simp [hq]))
      (m.set (k r) ((m.get? (k r)).getD [] ++ [r])) (GoMap.nodup_set _ _ _ hn)
    refine ⟨m', ?_, e2, ?_, ?_⟩
    · have hc : decomposeCallback key m ((specs ++ [s]).map fun t => g.cell t.attr r) r =
          Res.ok (m.set (k r) ((m.get? (k r)).getD [] ++ [r]), Ctl.cont) := by
        simp [decomposeCallback, List.getLast?_append, h2]
      simp only [mapOver, h1, Res.bind_ok, hc, e1]
    · intro c
      rw [e3 c, GoMap.get?_set, List.filter_cons]
      by_cases hkc : k r = c
      · subst hkc; simp
      · simp [hkc]
    · intro c
      rw [e4 c, GoMap.get?_set]
      simp only [List.mem_cons, exists_eq_or_imp]
      by_cases hkc : k r = c <;> simp [hkc]

theorem GoMap.get?_map {κ ν μ : Type} [DecidableEq κ] (m : GoMap κ ν) (f : κ → ν → μ) (k : κ) :
    GoMap.get? (m.map fun p => (p.1, f p.1 p.2)) k = (m.get? k).map (f k) := by
  induction m with
  | nil => rfl
  | cons p ps ih =>
    obtain ⟨k', v⟩ := p
    simp only [List.map_cons, GoMap.get?]
    by_cases h : k' = k
    · simp [h]
    · simp [h, ih]

end Golearn
