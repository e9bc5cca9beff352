import Verif.Proofs.EntropyF
import Mathlib.Algebra.BigOperators.Group.List.Basic
import Mathlib.Algebra.Order.BigOperators.Group.List

/-! # Rule generators with exact arithmetic -/

namespace Golearn

section
variable {K : Type} [Field K] [LinearOrder K] [IsStrictOrderedRing K]

/-- NaN for `none`. -/
def toExt : Option K → ExtNum K
  | some x => .num x
  | none => .nan

def addO (x y : Option K) : Option K := x.bind fun a => y.map fun b => a + b

omit [LinearOrder K] [IsStrictOrderedRing K] in
theorem sumO_cons (x : Option K) (l : List (Option K)) : sumO (x :: l) = addO x (sumO l) := rfl

omit [LinearOrder K] [IsStrictOrderedRing K] in
theorem addO_assoc (x y z : Option K) : addO (addO x y) z = addO x (addO y z) := by
  cases x <;> cases y <;> cases z <;> simp [addO, add_assoc]

omit [LinearOrder K] [IsStrictOrderedRing K] in
theorem addO_comm (x y : Option K) : addO x y = addO y x := by
  cases x <;> cases y <;> simp [addO, add_comm]

omit [LinearOrder K] [IsStrictOrderedRing K] in
theorem addO_zero (x : Option K) : addO x (some 0) = x := by
  cases x <;> simp [addO]

omit [LinearOrder K] [IsStrictOrderedRing K] in
theorem zero_addO (x : Option K) : addO (some 0) x = x := by
  cases x <;> simp [addO]

omit [LinearOrder K] [IsStrictOrderedRing K] in
theorem sumO_neg (l : List (Option K)) : sumO (l.map fun x => x.map fun a => -a) = (sumO l).map fun a => -a := by
  induction l with
  | nil => simp [sumO]
  | cons x l ih =>
    rw [List.map_cons, sumO_cons, ih, sumO_cons]
    cases x <;> cases sumO l <;> simp [addO, add_comm]

omit [IsStrictOrderedRing K] in
theorem ext_add (ln : K → K) (x y : Option K) : (exactArith ln).add (toExt x) (toExt y) = toExt (addO x y) := by
  cases x <;> cases y <;> rfl

omit [IsStrictOrderedRing K] in
theorem ext_sub (ln : K → K) (x y : Option K) : (exactArith ln).sub (toExt x) (toExt y) = toExt (addO x (y.map fun a => -a)) := by
  cases x <;> cases y <;> rfl

omit [LinearOrder K] [IsStrictOrderedRing K] in
/-- A loop that adds something at each turn. -/
theorem foldl_toExt {α : Type} (step : ExtNum K → α → ExtNum K) (f : α → Option K) (l : List α)
    (h : ∀ r, ∀ x ∈ l, step (toExt r) x = toExt (addO r (f x))) (a : Option K) :
    l.foldl step (toExt a) = toExt (addO a (sumO (l.map f))) := by
  induction l generalizing a with
  | nil => rw [List.foldl_nil, List.map_nil]; exact congrArg toExt (addO_zero a).symm
  | cons x l ih =>
    rw [List.foldl_cons, h a x (by simp), ih (fun r y hy => h r y (by simp [hy])), List.map_cons, sumO_cons, addO_assoc]

omit [IsStrictOrderedRing K] in
/-- The total of some numbers. -/
theorem foldl_total (ln : K → K) {α : Type} (f : α → Nat) (l : List α) :
    l.foldl (fun t q => (exactArith ln).add t ((exactArith ln).ofNat (f q))) ((exactArith ln).ofNat 0) =
      .num (((l.map f).sum : Nat) : K) := by
  suffices key : ∀ a : Nat, l.foldl (fun t q => (exactArith ln).add t ((exactArith ln).ofNat (f q))) (.num (a : K)) =
      .num ((a + (l.map f).sum : Nat) : K) by
    have := key 0
    rw [Nat.zero_add] at this
    exact this
  induction l with
  | nil => intro a; simp
  | cons x l ih =>
    intro a
    rw [List.foldl_cons]
    have : (exactArith ln).add (.num (a : K)) ((exactArith ln).ofNat (f x)) = .num ((a + f x : Nat) : K) := by
      rw [Nat.cast_add]; rfl
    rw [this, ih, List.map_cons, List.sum_cons, Nat.add_assoc]

/-- The terms of entropies. -/
theorem xlogF_exact {lg ln : K → K} (hl : ∀ x, 0 < x → lg x = ln x / ln 2) (h2 : ln 2 ≠ 0) (a n : Nat) (hn : n = 0 → a = 0) :
    xlogF (exactArith ln) (.num (a : K)) n = toExt (xlog lg a n) := by
  have two : (exactArith ln).log ((exactArith ln).ofNat 2) = .num (ln 2) := by
    show ExtNum.log ln (.num ((2 : Nat) : K)) = _
    unfold ExtNum.log
    simp
  unfold xlogF
  rw [two]
  show ExtNum.div (ExtNum.mul (ExtNum.div (.num (a : K)) (.num (n : K))) (ExtNum.log ln (ExtNum.div (.num (a : K)) (.num (n : K))))) _ = _
  by_cases h0 : n = 0
  · have ha := hn h0
    subst h0; subst ha
    simp [ExtNum.div, ExtNum.signed, ExtNum.mul, xlog, toExt]
  · have hnk : (n : K) ≠ 0 := Nat.cast_ne_zero.2 h0
    by_cases ha : a = 0
    · subst ha
      simp [ExtNum.div, hnk, ExtNum.log, ExtNum.mul, ExtNum.signed, xlog, toExt]
    · have hp : (0 : K) < (a : K) / n :=
        div_pos (Nat.cast_pos.2 (Nat.pos_of_ne_zero ha)) (Nat.cast_pos.2 (Nat.pos_of_ne_zero h0))
      simp only [ExtNum.div, hnk, if_false, ExtNum.log, hp, if_true, ExtNum.mul, h2, xlog, h0, ha, or_self, toExt, hl _ hp, mul_div_assoc]

omit [IsStrictOrderedRing K] in
theorem perm_map_sum {α : Type} {l l' : List α} (h : l.Perm l') (f : α → Nat) : (l.map f).sum = (l'.map f).sum :=
  (h.map f).sum_eq

theorem le_sum_map {α : Type} {l : List α} (f : α → Nat) {x : α} (hx : x ∈ l) : f x ≤ (l.map f).sum :=
  List.le_sum_of_mem (List.mem_map_of_mem hx)

variable {e : RuleEnvF (ExtNum K)} {lg ln : K → K}

theorem baseEntropyF_exact (E : e.Ok) (ha : e.arith = exactArith ln) (hl : ∀ x, 0 < x → lg x = ln x / ln 2) (h2 : ln 2 ≠ 0)
    (s : GoMap String Nat) : baseEntropyF e s = toExt (baseEntropy lg s) := by
  unfold baseEntropyF
  rw [ha, perm_map_sum (E.classes s) Prod.snd]
  have h0 : (exactArith ln).ofNat 0 = toExt (some (0 : K)) := by
    show ExtNum.num ((0 : Nat) : K) = _
    rw [Nat.cast_zero]; rfl
  rw [h0, foldl_toExt _ (fun p : String × Nat => (xlog lg p.2 (s.map Prod.snd).sum).map fun a => -a)]
  · rw [zero_addO, sumO_perm ((E.classes s).map _)]
    unfold baseEntropy
    rw [← sumO_neg, List.map_map]
    rfl
  · intro r p hp
    have hp := (E.classes s).mem_iff.1 hp
    have hx : xlogF (exactArith ln) ((exactArith ln).ofNat p.2) (s.map Prod.snd).sum = toExt (xlog lg p.2 (s.map Prod.snd).sum) := by
      refine xlogF_exact hl h2 _ _ ?_
      intro h
      have := le_sum_map Prod.snd hp
      omega
    rw [hx, ext_sub]

theorem totalF_exact (E : e.Ok) (s : GoMap String (GoMap String Nat)) : totalF e s = totalOf s := by
  unfold totalF totalOf
  rw [perm_map_sum (E.values s)]
  congr 1
  exact List.map_congr_left fun p _ => perm_map_sum (E.classes p.2) Prod.snd

theorem splitEntropyF_exact (E : e.Ok) (ha : e.arith = exactArith ln) (hl : ∀ x, 0 < x → lg x = ln x / ln 2) (h2 : ln 2 ≠ 0)
    (s : GoMap String (GoMap String Nat)) : splitEntropyF e s = toExt (splitEntropy lg s) := by
  unfold splitEntropyF
  rw [ha, totalF_exact E s]
  have h0 : (exactArith ln).ofNat 0 = toExt (some (0 : K)) := by
    show ExtNum.num ((0 : Nat) : K) = _
    rw [Nat.cast_zero]; rfl
  rw [h0, foldl_toExt _ (fun p : String × GoMap String Nat =>
    (sumO (p.2.map fun q => xlog lg q.2 (totalOf s))).bind fun x =>
      (xlog lg (p.2.map Prod.snd).sum (totalOf s)).map fun y => -x + y)]
  · rw [zero_addO, sumO_perm ((E.values s).map _)]
    rfl
  · intro r p hp
    have hp := (E.values s).mem_iff.1 hp
    have htot : (p.2.map Prod.snd).sum ≤ totalOf s := le_sum_map (fun p => (p.2.map Prod.snd).sum) hp
    simp only
    rw [← h0, foldl_total ln Prod.snd, perm_map_sum (E.classes p.2) Prod.snd,
      xlogF_exact hl h2 _ _ (fun h => by omega),
      foldl_toExt _ (fun q : String × Nat => (xlog lg q.2 (totalOf s)).map fun a => -a)]
    · rw [sumO_perm ((E.classes p.2).map _), ext_add, addO_assoc]
      congr 2
      have : sumO (p.2.map fun q => (xlog lg q.2 (totalOf s)).map fun a => -a) =
          (sumO (p.2.map fun q => xlog lg q.2 (totalOf s))).map fun a => -a := by
        rw [← sumO_neg, List.map_map]; rfl
      rw [this]
      cases sumO (p.2.map fun q => xlog lg q.2 (totalOf s)) <;> rfl
    · intro r q hq
      have hq := (E.classes p.2).mem_iff.1 hq
      have := le_sum_map Prod.snd hq
      have hx : xlogF (exactArith ln) ((exactArith ln).ofNat q.2) (totalOf s) = toExt (xlog lg q.2 (totalOf s)) :=
        xlogF_exact hl h2 _ _ (fun h => by omega)
      rw [hx, ext_sub]

theorem splitEntropyFastF_exact (hl : ∀ x, 0 < x → lg x = ln x / ln 2) (h2 : ln 2 ≠ 0) (cls : List String) (l r : String → Nat) :
    splitEntropyFastF (exactArith ln) cls l r = toExt (splitEntropyFast lg cls l r) := by
  unfold splitEntropyFastF
  have h0 : (exactArith ln).ofNat 0 = toExt (some (0 : K)) := by
    show ExtNum.num ((0 : Nat) : K) = _
    rw [Nat.cast_zero]; rfl
  simp only
  set count := (cls.map l).sum + (cls.map r).sum with hcount
  have key : ([l, r].foldl (fun ret s => (exactArith ln).add
      (cls.foldl (fun ret c => if s c ≠ 0 then (exactArith ln).sub ret (xlogF (exactArith ln) ((exactArith ln).ofNat (s c)) count)
        else ret) ret)
      (xlogF (exactArith ln) (cls.foldl (fun t c => (exactArith ln).add t ((exactArith ln).ofNat (s c))) ((exactArith ln).ofNat 0))
        count)) ((exactArith ln).ofNat 0)) = toExt (addO (some 0) (sumO ([l, r].map fun s => sideEntropy lg cls s count))) := by
    conv_lhs => rw [h0]
    apply foldl_toExt
    intro a s hs
    have hle : (cls.map s).sum ≤ count := by
      rcases List.mem_cons.1 hs with rfl | hs
      · omega
      · rw [List.mem_singleton] at hs; subst hs; omega
    have hfold : cls.foldl (fun ret c => if s c ≠ 0 then (exactArith ln).sub ret
        (xlogF (exactArith ln) ((exactArith ln).ofNat (s c)) count) else ret) (toExt a) =
        (cls.filter fun c => decide (s c ≠ 0)).foldl (fun ret c => (exactArith ln).sub ret
          (xlogF (exactArith ln) ((exactArith ln).ofNat (s c)) count)) (toExt a) := by
      rw [List.foldl_filter]
      congr 1
      funext ret c
      by_cases h : s c = 0 <;> simp [h]
    rw [← h0, foldl_total ln s, xlogF_exact hl h2 _ _ (fun h => by omega), hfold,
      foldl_toExt _ (fun c => (xlog lg (s c) count).map fun a => -a)]
    · rw [ext_add, addO_assoc]
      congr 2
      have : sumO ((cls.filter fun c => decide (s c ≠ 0)).map fun c => (xlog lg (s c) count).map fun a => -a) =
          (sumO ((cls.filter fun c => decide (s c ≠ 0)).map fun c => xlog lg (s c) count)).map fun a => -a := by
        rw [← sumO_neg, List.map_map]; rfl
      rw [this]
      unfold sideEntropy
      cases sumO ((cls.filter fun c => decide (s c ≠ 0)).map fun c => xlog lg (s c) count) <;> rfl
    · intro b c hc
      have hc := (List.mem_filter.1 hc).1
      have := le_sum_map s hc
      have hx : xlogF (exactArith ln) ((exactArith ln).ofNat (s c)) count = toExt (xlog lg (s c) count) :=
        xlogF_exact hl h2 _ _ (fun h => by omega)
      rw [hx, ext_sub]
  rw [key, zero_addO]
  rfl

/-! ## The scan -/

/-- The best threshold so far. -/
def bestExt : Option (K × U64) → ExtNum K × U64
  | some p => (.num p.1, p.2)
  | none => (.inf, posInf)

theorem scanLoopF_exact (ha : e.arith = exactArith ln) (hl : ∀ x, 0 < x → lg x = ln x / ln 2) (h2 : ln 2 ≠ 0)
    (cls : List String) (refs : List (U64 × String)) : ∀ fuel i prev rest l r best,
    scanLoopF e cls refs fuel i prev rest l r (bestExt best) = (scanLoop (e.exact lg) cls refs fuel i prev rest l r best).map bestExt := by
  intro fuel
  induction fuel with
  | zero => intros; rfl
  | succ fuel ih =>
    intro i prev rest l r best
    rw [scanLoopF, scanLoop]
    cases refs[i]? with
    | none => rfl
    | some a =>
      cases refs[i + 1]? with
      | none => rfl
      | some b =>
        simp only
        have step : ∀ (s : Option K) (v : U64), (if e.arith.gt (bestExt best).1 (toExt s) then (toExt s, v) else bestExt best) =
            bestExt (match s with
              | none => best
              | some s => match best with
                | none => some (s, v)
                | some p => if s < p.1 then some (s, v) else best) := by
          intro s v
          rw [ha]
          cases s with
          | none => cases best <;> rfl
          | some s =>
            cases best with
            | none => rfl
            | some p =>
              show (if decide (s < p.1) = true then _ else _) = _
              by_cases h : s < p.1 <;> simp [h, bestExt, toExt]
        have hsp : ∀ l' r', splitEntropyFastF e.arith cls l' r' = toExt (splitEntropyFast (e.exact lg).lg cls l' r') := by
          intro l' r'
          rw [ha]
          exact splitEntropyFastF_exact hl h2 cls l' r'
        rw [hsp, step]
        have e1 : (e.exact lg).feq = e.feq := rfl
        have e2 : (e.exact lg).mid = e.mid := rfl
        have e3 : (e.exact lg).fo = e.fo := rfl
        rw [e1, e2, e3]
        cases prev with
        | none => exact ih _ _ _ _ _ _
        | some v =>
          simp only
          by_cases hc : e.feq (e.mid a.1 b.1) v = true
          · rw [if_pos hc, if_pos hc]; exact ih _ _ _ _ _ _
          · rw [if_neg hc, if_neg hc]; exact ih _ _ _ _ _ _

theorem numericEntropyF_exact (ha : e.arith = exactArith ln) (hl : ∀ x, 0 < x → lg x = ln x / ln 2) (h2 : ln 2 ≠ 0) (g : Grid)
    (a : Attr) : numericEntropyF e g a = (numericEntropy (e.exact lg) g a).map bestExt := by
  unfold numericEntropyF numericEntropy
  show (numericRefs e.fo e.sortRefs (e.order g) g a).bind _ = Res.map _ ((numericRefs e.fo e.sortRefs (e.order g) g a).bind _)
  cases numericRefs e.fo e.sortRefs (e.order g) g a with
  | ok st =>
    simp only [Res.bind_ok]
    rw [← scanLoopF_exact ha hl h2, ha]
    rfl
  | err => rfl
  | panic => rfl

/-! ## The selection -/

/-- What is known of a value that may be missing: a missing value is never better than another. -/
def Shows {V : Type} (better : ExtNum K → ExtNum K → Bool) (emb : V → ExtNum K) (o : Option V) (x : ExtNum K) : Prop :=
  match o with
  | some v => x = emb v
  | none => ∀ y, better x y = false

omit [IsStrictOrderedRing K] in
theorem pickF_max {V : Type} [LinearOrder V] (better : ExtNum K → ExtNum K → Bool) (emb : V → ExtNum K) (start : ExtNum K)
    (hb : ∀ v w, better (emb v) (emb w) = decide (w < v)) (hs : ∀ v, better (emb v) start = true)
    {l : List (Attr × Option V × U64)} {m : List (Attr × ExtNum K × U64)}
    (h : List.Forall₂ (fun p q => p.1 = q.1 ∧ p.2.2 = q.2.2 ∧ Shows better emb p.2.1 q.2.1) l m) :
    pickF better m start = (pickMax l none).map Prod.snd := by
  unfold pickF
  suffices key : ∀ best : Option (V × Rule),
      (m.foldl (fun best t => if better t.2.1 best.1 then (t.2.1, some ⟨t.1, t.2.2⟩) else best)
        ((match best with | some p => (emb p.1, some p.2) | none => (start, none)) : ExtNum K × Option Rule)).2 =
      (pickMax l best).map Prod.snd from key none
  induction h with
  | nil => intro best; cases best <;> rfl
  | @cons p q l m hpq _ ih =>
    intro best
    obtain ⟨a, o, x⟩ := p
    obtain ⟨a', y, x'⟩ := q
    obtain ⟨h1, h2, h3⟩ := hpq
    simp only at h1 h2 h3
    subst h1; subst h2
    rw [List.foldl_cons]
    cases o with
    | none =>
      have hf : ∀ z, better y z = false := h3
      simp only [hf, Bool.false_eq_true, if_false]
      rw [ih best]
      cases best <;> rfl
    | some v =>
      have hv : y = emb v := h3
      subst hv
      cases best with
      | none =>
        simp only [hs, if_true]
        exact ih (some (v, ⟨a, x⟩))
      | some w =>
        simp only [hb]
        rw [pickMax]
        by_cases hlt : w.1 < v
        · simp only [hlt, decide_true, if_true]
          exact ih (some (v, ⟨a, x⟩))
        · simp only [hlt, decide_false, Bool.false_eq_true, if_false]
          exact ih (some w)

omit [IsStrictOrderedRing K] in
theorem pickF_min {V : Type} [LinearOrder V] (better : ExtNum K → ExtNum K → Bool) (emb : V → ExtNum K) (start : ExtNum K)
    (hb : ∀ v w, better (emb v) (emb w) = decide (v < w)) (hs : ∀ v, better (emb v) start = true)
    {l : List (Attr × Option V × U64)} {m : List (Attr × ExtNum K × U64)}
    (h : List.Forall₂ (fun p q => p.1 = q.1 ∧ p.2.2 = q.2.2 ∧ Shows better emb p.2.1 q.2.1) l m) :
    pickF better m start = (pickMin l none).map Prod.snd := by
  unfold pickF
  suffices key : ∀ best : Option (V × Rule),
      (m.foldl (fun best t => if better t.2.1 best.1 then (t.2.1, some ⟨t.1, t.2.2⟩) else best)
        ((match best with | some p => (emb p.1, some p.2) | none => (start, none)) : ExtNum K × Option Rule)).2 =
      (pickMin l best).map Prod.snd from key none
  induction h with
  | nil => intro best; cases best <;> rfl
  | @cons p q l m hpq _ ih =>
    intro best
    obtain ⟨a, o, x⟩ := p
    obtain ⟨a', y, x'⟩ := q
    obtain ⟨h1, h2, h3⟩ := hpq
    simp only at h1 h2 h3
    subst h1; subst h2
    rw [List.foldl_cons]
    cases o with
    | none =>
      have hf : ∀ z, better y z = false := h3
      simp only [hf, Bool.false_eq_true, if_false]
      rw [ih best]
      cases best <;> rfl
    | some v =>
      have hv : y = emb v := h3
      subst hv
      cases best with
      | none =>
        simp only [hs, if_true]
        exact ih (some (v, ⟨a, x⟩))
      | some w =>
        simp only [hb]
        rw [pickMin]
        by_cases hlt : v < w.1
        · simp only [hlt, decide_true, if_true]
          exact ih (some (v, ⟨a, x⟩))
        · simp only [hlt, decide_false, Bool.false_eq_true, if_false]
          exact ih (some w)

omit [Field K] [LinearOrder K] [IsStrictOrderedRing K] in
theorem mapRes_rel_exact {α β γ δ : Type} {f : α → Res β} {g : α → Res γ} {R : β → γ → Prop} {p : List β → δ} {q : List γ → δ}
    (h : ∀ a, (∃ x y, f a = Res.ok x ∧ g a = Res.ok y ∧ R x y) ∨ (f a = Res.err ∧ g a = Res.err) ∨ (f a = Res.panic ∧ g a = Res.panic))
    (hp : ∀ l m, List.Forall₂ R l m → p l = q m) (as : List α) : (mapRes f as).map p = (mapRes g as).map q := by
  suffices key : (∃ l m, mapRes f as = Res.ok l ∧ mapRes g as = Res.ok m ∧ List.Forall₂ R l m) ∨
      (mapRes f as = Res.err ∧ mapRes g as = Res.err) ∨ (mapRes f as = Res.panic ∧ mapRes g as = Res.panic) by
    rcases key with ⟨l, m, h1, h2, h3⟩ | ⟨h1, h2⟩ | ⟨h1, h2⟩
    · rw [h1, h2, Res.map_ok, Res.map_ok, hp l m h3]
    · rw [h1, h2]; rfl
    · rw [h1, h2]; rfl
  induction as with
  | nil => exact Or.inl ⟨[], [], rfl, rfl, .nil⟩
  | cons a as ih =>
    simp only [mapRes]
    rcases h a with ⟨x, y, h1, h2, h3⟩ | ⟨h1, h2⟩ | ⟨h1, h2⟩
    · rw [h1, h2]
      rcases ih with ⟨l, m, i1, i2, i3⟩ | ⟨i1, i2⟩ | ⟨i1, i2⟩
      · rw [i1, i2]; exact Or.inl ⟨x :: l, y :: m, rfl, rfl, .cons h3 i3⟩
      · rw [i1, i2]; exact Or.inr (Or.inl ⟨rfl, rfl⟩)
      · rw [i1, i2]; exact Or.inr (Or.inr ⟨rfl, rfl⟩)
    · rw [h1, h2]; exact Or.inr (Or.inl ⟨rfl, rfl⟩)
    · rw [h1, h2]; exact Or.inr (Or.inr ⟨rfl, rfl⟩)

/-- The entropy after a split, as `localEntropy` has it: `none` for an infinity or NaN. -/
theorem localEntropyF_exact (E : e.Ok) (ha : e.arith = exactArith ln) (hl : ∀ x, 0 < x → lg x = ln x / ln 2) (h2 : ln 2 ≠ 0)
    (g : Grid) (a : Attr) :
    (∃ o x t, localEntropy (e.exact lg) g a = Res.ok (o, t) ∧ localEntropyF e g a = Res.ok (x, t) ∧
      (x = toExt o ∨ (o = none ∧ x = .inf))) ∨
    (localEntropy (e.exact lg) g a = Res.err ∧ localEntropyF e g a = Res.err) ∨
    (localEntropy (e.exact lg) g a = Res.panic ∧ localEntropyF e g a = Res.panic) := by
  unfold localEntropy localEntropyF
  by_cases hf : a.isFloat = true
  · simp only [hf, if_true, numericEntropyF_exact (lg := lg) ha hl h2]
    cases numericEntropy (e.exact lg) g a with
    | ok o =>
      cases o with
      | none => exact Or.inl ⟨none, .inf, posInf, rfl, rfl, Or.inr ⟨rfl, rfl⟩⟩
      | some p => exact Or.inl ⟨some p.1, .num p.1, p.2, rfl, rfl, Or.inl rfl⟩
    | err => exact Or.inr (Or.inl ⟨rfl, rfl⟩)
    | panic => exact Or.inr (Or.inr ⟨rfl, rfl⟩)
  · simp only [hf, if_false]
    show (∃ o x t, (distAfterSplit e.fo g a).map _ = _ ∧ _) ∨ ((distAfterSplit e.fo g a).map _ = _ ∧ _) ∨
      ((distAfterSplit e.fo g a).map _ = _ ∧ _)
    cases distAfterSplit e.fo g a with
    | ok m => exact Or.inl ⟨_, _, 0, rfl, rfl, Or.inl (splitEntropyF_exact E ha hl h2 m)⟩
    | err => exact Or.inr (Or.inl ⟨rfl, rfl⟩)
    | panic => exact Or.inr (Or.inr ⟨rfl, rfl⟩)

theorem gt_num (v w : K) : ExtNum.gt (.num v) (.num w) = decide (w < v) := rfl

theorem infoGainFromF_exact (E : e.Ok) (ha : e.arith = exactArith ln) (hl : ∀ x, 0 < x → lg x = ln x / ln 2) (h2 : ln 2 ≠ 0)
    (as : List Attr) (g : Grid) : infoGainFromF e as g = infoGainFrom (e.exact lg) as g := by
  unfold infoGainFromF infoGainFrom
  cases as with
  | nil => rfl
  | cons a as =>
    simp only
    show (getClassDistribution e.fo g).bind _ = (getClassDistribution e.fo g).bind _
    cases getClassDistribution e.fo g with
    | ok d =>
      simp only [Res.bind_ok]
      symm
      refine mapRes_rel_exact (R := fun p q => p.1 = q.1 ∧ p.2.2 = q.2.2 ∧ Shows e.arith.gt ExtNum.num p.2.1 q.2.1) ?_ ?_ (a :: as)
      · intro b
        rcases localEntropyF_exact (lg := lg) E ha hl h2 g b with ⟨o, x, t, h1, h3, h4⟩ | ⟨h1, h3⟩ | ⟨h1, h3⟩
        · refine Or.inl ⟨_, _, by rw [h1]; rfl, by rw [h3]; rfl, rfl, rfl, ?_⟩
          rw [baseEntropyF_exact (lg := lg) E ha hl h2, ha]
          show Shows _ _ (subO (baseEntropy lg d) o) _
          rcases h4 with rfl | ⟨rfl, rfl⟩
          · cases baseEntropy lg d with
            | none => intro y; rfl
            | some b =>
              cases o with
              | none => intro y; rfl
              | some l => show ExtNum.num (b + -l) = ExtNum.num (b - l); rw [sub_eq_add_neg]
          · cases baseEntropy lg d with
            | none => intro y; rfl
            | some b => intro y; cases y <;> rfl
        · exact Or.inr (Or.inl ⟨by rw [h1]; rfl, by rw [h3]; rfl⟩)
        · exact Or.inr (Or.inr ⟨by rw [h1]; rfl, by rw [h3]; rfl⟩)
      · intro l m h
        symm
        exact pickF_max _ _ _ (by rw [ha]; exact gt_num) (by rw [ha]; intro v; rfl) h
    | err => rfl
    | panic => rfl

/-- A gain ratio, which may be infinite. -/
def ratioExt : WithTop K → ExtNum K
  | some x => .num x
  | none => .inf

theorem gainRatioFromF_exact (E : e.Ok) (ha : e.arith = exactArith ln) (hl : ∀ x, 0 < x → lg x = ln x / ln 2) (h2 : ln 2 ≠ 0)
    (as : List Attr) (g : Grid) : gainRatioFromF e as g = gainRatioFrom (e.exact lg) as g := by
  unfold gainRatioFromF gainRatioFrom
  cases as with
  | nil => rfl
  | cons a as =>
    simp only
    show (getClassDistribution e.fo g).bind _ = (getClassDistribution e.fo g).bind _
    cases getClassDistribution e.fo g with
    | ok d =>
      simp only [Res.bind_ok]
      symm
      refine mapRes_rel_exact (R := fun p q => p.1 = q.1 ∧ p.2.2 = q.2.2 ∧ Shows e.arith.gt ratioExt p.2.1 q.2.1) ?_ ?_ (a :: as)
      · intro b
        rcases localEntropyF_exact (lg := lg) E ha hl h2 g b with ⟨o, x, t, h1, h3, h4⟩ | ⟨h1, h3⟩ | ⟨h1, h3⟩
        · refine Or.inl ⟨_, _, by rw [h1]; rfl, by rw [h3]; rfl, rfl, rfl, ?_⟩
          rw [baseEntropyF_exact (lg := lg) E ha hl h2, ha]
          show Shows _ _ (gainRatio (baseEntropy lg d) o) _
          rcases h4 with rfl | ⟨rfl, rfl⟩
          · cases baseEntropy lg d with
            | none => intro y; rfl
            | some b =>
              cases o with
              | none => intro y; rfl
              | some l =>
                show Shows ExtNum.gt _ (if l = 0 then (if 0 < b - l then some ⊤ else none) else some (((b - l) / l : K) : WithTop K))
                  (if l = 0 then ExtNum.signed (b + -l) else .num ((b + -l) / l))
                rw [← sub_eq_add_neg]
                by_cases h0 : l = 0
                · rw [if_pos h0, if_pos h0]
                  unfold ExtNum.signed
                  by_cases hp : 0 < b - l
                  · rw [if_pos hp, if_pos hp]; rfl
                  · rw [if_neg hp, if_neg hp]
                    by_cases hn : b - l < 0
                    · rw [if_pos hn]; intro y; cases y <;> rfl
                    · rw [if_neg hn]; intro y; rfl
                · rw [if_neg h0, if_neg h0]; rfl
          · cases baseEntropy lg d with
            | none => intro y; rfl
            | some b => intro y; rfl
        · exact Or.inr (Or.inl ⟨by rw [h1]; rfl, by rw [h3]; rfl⟩)
        · exact Or.inr (Or.inr ⟨by rw [h1]; rfl, by rw [h3]; rfl⟩)
      · intro l m h
        symm
        refine pickF_max _ _ _ ?_ ?_ h
        · intro v w
          rw [ha]
          induction v using WithTop.recTopCoe with
          | top =>
            induction w using WithTop.recTopCoe with
            | top => show false = _; simp
            | coe w => show true = _; simp
          | coe v =>
            induction w using WithTop.recTopCoe with
            | top => show false = _; simp
            | coe w => show decide (w < v) = _; simp
        · intro v
          rw [ha]
          induction v using WithTop.recTopCoe <;> rfl
    | err => rfl
    | panic => rfl

/-! ## Gini -/

theorem computeGini_one (s : GoMap String Nat) : computeGini (K := K) s = 1 := by
  unfold computeGini
  have : s.foldl (fun (p : GoMap String K) q =>
      if (GoMap.get? p q.1).getD 0 = 0 then p else p.set q.1 (1 / (GoMap.get? p q.1).getD 0)) [] = [] := by
    induction s with
    | nil => rfl
    | cons q s ih =>
      rw [List.foldl_cons]
      have : (GoMap.get? ([] : GoMap String K) q.1).getD 0 = 0 := rfl
      rw [if_pos this]
      exact ih
  simp only [this]
  simp

theorem computeGiniF_exact (ha : e.arith = exactArith ln) (s : GoMap String Nat) : computeGiniF e s = .num 1 := by
  unfold computeGiniF
  rw [ha]
  have hz : (exactArith ln).isZero ((exactArith ln).ofNat 0) = true := by
    show decide (((0 : Nat) : K) = 0) = true
    simp
  have : ∀ l : GoMap String Nat, l.foldl (fun (p : GoMap String (ExtNum K)) q =>
      if (exactArith ln).isZero ((GoMap.get? p q.1).getD ((exactArith ln).ofNat 0)) then p
      else p.set q.1 ((exactArith ln).div ((exactArith ln).ofNat 1) ((GoMap.get? p q.1).getD ((exactArith ln).ofNat 0)))) [] = [] := by
    intro l
    induction l with
    | nil => rfl
    | cons q l ih =>
      rw [List.foldl_cons]
      have : (GoMap.get? ([] : GoMap String (ExtNum K)) q.1).getD ((exactArith ln).ofNat 0) = (exactArith ln).ofNat 0 := rfl
      rw [this, if_pos hz]
      exact ih
  simp only [this]
  show ExtNum.num (((1 : Nat) : K) + -((0 : Nat) : K)) = _
  simp

theorem averageGiniF_exact (E : e.Ok) (ha : e.arith = exactArith ln) (s : GoMap String (GoMap String Nat)) :
    averageGiniF e s = toExt (averageGini s) := by
  unfold averageGiniF
  rw [ha, totalF_exact E s]
  have h0 : (exactArith ln).ofNat 0 = toExt (some (0 : K)) := by
    show ExtNum.num ((0 : Nat) : K) = _
    rw [Nat.cast_zero]; rfl
  conv_lhs => rw [h0]
  rw [foldl_toExt _ (fun p : String × GoMap String Nat => if totalOf s = 0 then none
    else some ((((p.2.map Prod.snd).sum : Nat) : K) / (totalOf s : Nat) * computeGini p.2))]
  · rw [zero_addO, sumO_perm ((E.values s).map _)]
    rfl
  · intro r p hp
    have hp := (E.values s).mem_iff.1 hp
    have htot : (p.2.map Prod.snd).sum ≤ totalOf s := le_sum_map (fun p => (p.2.map Prod.snd).sum) hp
    simp only
    rw [← h0, foldl_total ln Prod.snd, perm_map_sum (E.classes p.2) Prod.snd, computeGiniF_exact ha, computeGini_one]
    rw [← ext_add ln]
    congr 1
    show ExtNum.mul (ExtNum.div (.num _) (.num ((totalOf s : Nat) : K))) (.num 1) = _
    by_cases ht : totalOf s = 0
    · have : (p.2.map Prod.snd).sum = 0 := by omega
      rw [this, ht]
      simp [ExtNum.div, ExtNum.signed, ExtNum.mul, toExt]
    · have : ((totalOf s : Nat) : K) ≠ 0 := Nat.cast_ne_zero.2 ht
      simp only [ExtNum.div, this, if_false, ExtNum.mul, ht, toExt]

theorem giniFromF_exact (E : e.Ok) (ha : e.arith = exactArith ln) (hl : ∀ x, 0 < x → lg x = ln x / ln 2) (h2 : ln 2 ≠ 0)
    (as : List Attr) (g : Grid) : giniFromF e as g = giniFrom (e.exact lg) as g := by
  unfold giniFromF giniFrom
  cases as with
  | nil => rfl
  | cons a as =>
    simp only
    symm
    refine mapRes_rel_exact (R := fun p q => p.1 = q.1 ∧ p.2.2 = q.2.2 ∧ Shows (fun x y => e.arith.gt y x) ExtNum.num p.2.1 q.2.1) ?_ ?_ (a :: as)
    · intro b
      have sh : ∀ m : GoMap String (GoMap String Nat),
          Shows (fun x y => e.arith.gt y x) ExtNum.num (averageGini (K := K) m) (averageGiniF e m) := by
        intro m
        rw [averageGiniF_exact E ha, ha]
        cases averageGini (K := K) m with
        | none => intro y; cases y <;> rfl
        | some v => rfl
      unfold localGini localGiniF
      by_cases hf : b.isFloat = true
      · simp only [hf, if_true, numericEntropyF_exact (lg := lg) ha hl h2]
        cases numericEntropy (e.exact lg) g b with
        | ok o =>
          have key : ∀ v : U64, (∃ x y, Res.map (fun p : Option K × U64 => (b, p.1, p.2))
              ((distAfterThreshold e.fo g b v).map fun m => (averageGini m, v)) = Res.ok x ∧
              Res.map (fun p : ExtNum K × U64 => (b, p.1, p.2)) ((distAfterThreshold e.fo g b v).map fun m => (averageGiniF e m, v)) =
                Res.ok y ∧ x.1 = y.1 ∧ x.2.2 = y.2.2 ∧ Shows (fun x y => e.arith.gt y x) ExtNum.num x.2.1 y.2.1) ∨
              (Res.map (fun p : Option K × U64 => (b, p.1, p.2))
                ((distAfterThreshold e.fo g b v).map fun m => (averageGini m, v)) = Res.err ∧
              Res.map (fun p : ExtNum K × U64 => (b, p.1, p.2))
                ((distAfterThreshold e.fo g b v).map fun m => (averageGiniF e m, v)) = Res.err) ∨
              (Res.map (fun p : Option K × U64 => (b, p.1, p.2))
                ((distAfterThreshold e.fo g b v).map fun m => (averageGini m, v)) = Res.panic ∧
              Res.map (fun p : ExtNum K × U64 => (b, p.1, p.2))
                ((distAfterThreshold e.fo g b v).map fun m => (averageGiniF e m, v)) = Res.panic) := by
            intro v
            cases distAfterThreshold e.fo g b v with
            | ok m => exact Or.inl ⟨_, _, rfl, rfl, rfl, rfl, sh m⟩
            | err => exact Or.inr (Or.inl ⟨rfl, rfl⟩)
            | panic => exact Or.inr (Or.inr ⟨rfl, rfl⟩)
          cases o with
          | none => exact key posInf
          | some p => exact key p.2
        | err => exact Or.inr (Or.inl ⟨rfl, rfl⟩)
        | panic => exact Or.inr (Or.inr ⟨rfl, rfl⟩)
      · simp only [hf, if_false]
        show (∃ x y, ((distAfterSplit e.fo g b).map _).map _ = _ ∧ _) ∨ (((distAfterSplit e.fo g b).map _).map _ = _ ∧ _) ∨
          (((distAfterSplit e.fo g b).map _).map _ = _ ∧ _)
        cases distAfterSplit e.fo g b with
        | ok m => exact Or.inl ⟨_, _, rfl, rfl, rfl, rfl, sh m⟩
        | err => exact Or.inr (Or.inl ⟨rfl, rfl⟩)
        | panic => exact Or.inr (Or.inr ⟨rfl, rfl⟩)
    · intro l m h
      symm
      refine pickF_min _ _ _ (by rw [ha]; intro v w; exact gt_num w v) (by rw [ha]; intro v; rfl) h

end

end Golearn
