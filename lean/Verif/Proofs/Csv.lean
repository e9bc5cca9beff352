import Verif.Model.Csv
import Verif.Proofs.Serialize
import Verif.Props.C29
import Verif.Props.C05

/-! # The CSV parser fills the grid -/

namespace Golearn

theorem DenseOK.withClass {rows : Nat} {d : Dense} (D : DenseOK rows d) (c : GoMap Spec Bool) :
    DenseOK rows { d with classAttrs := c } := by
  obtain ⟨h1, W, hs, I, k⟩ := D
  exact ⟨h1, W, hs, ⟨I.hrows, I.sized, I.unfixed, I.kindpos, I.agmap, I.valid, I.inj, I.complete,
    I.listed, I.cells⟩, k⟩

/-- The value stored for a non-empty field of a column, when the categorical values are `env`. -/
def Stored (co : CsvOps) (env : ValEnv) (a : Attr) (v : String) (c : Bytes) : Prop :=
  match a.body with
  | .float _ _ => ∃ b, co.parse (co.trim v) = some b ∧ c = packU64 b
  | .cat _ _ => ∃ k, (env a.ptr)[k]? = some (co.trim v) ∧ c = packU64 (BitVec.ofNat 64 k)
  | .bin _ => ∃ b, co.parse (co.trim v) = some b ∧ c = if f64Pos b then [1#8] else [0#8]

/-- A field that can be stored in the column. -/
def Storable (co : CsvOps) (a : Attr) (v : String) : Prop :=
  v = "" ∨ a.isCat = true ∨ (co.parse (co.trim v)).isSome = true

/-- `env'` was reached from `env` by at most `k` calls. -/
structure EnvGrows (env env' : ValEnv) (k : Nat) : Prop where
  pre : ∀ p, env p <+: env' p
  len : ∀ p, (env' p).length ≤ (env p).length + k
  nodup : ∀ p, (env p).Nodup → (env' p).Nodup

theorem EnvGrows.refl (env : ValEnv) (k : Nat) : EnvGrows env env k :=
  ⟨fun _ => List.prefix_refl _, fun _ => by omega, fun _ h => h⟩

theorem EnvGrows.trans {e1 e2 e3 : ValEnv} {k l : Nat} (h : EnvGrows e1 e2 k) (h' : EnvGrows e2 e3 l) :
    EnvGrows e1 e3 (k + l) :=
  ⟨fun p => (h.pre p).trans (h'.pre p), fun p => by have := h.len p; have := h'.len p; omega,
    fun p hn => h'.nodup p (h.nodup p hn)⟩

theorem Stored.mono {co : CsvOps} {env env' : ValEnv} {k : Nat} (h : EnvGrows env env' k) {a : Attr}
    {v : String} {c : Bytes} (hs : Stored co env a v c) : Stored co env' a v c := by
  unfold Stored at *
  split
  · rw [‹a.body = _›] at hs; exact hs
  · rw [‹a.body = _›] at hs
    obtain ⟨i, h1, h2⟩ := hs
    refine ⟨i, ?_, h2⟩
    obtain ⟨t, ht⟩ := h.pre a.ptr
    rw [← ht, List.getElem?_append_left (List.getElem?_eq_some_iff.1 h1).1]
    exact h1
  · rw [‹a.body = _›] at hs; exact hs

theorem sysVal_spec {co : CsvOps} {env : ValEnv} {a : Attr} {v : String} (hv : v ≠ "")
    (h : Storable co a v) : ∃ c env', sysValFromString co env a (co.trim v) = Res.ok (c, env') ∧
      EnvGrows env env' 1 ∧ Stored co env' a v c ∧ wellFormed a c ∧
      ∀ p x, x ∈ env' p → x ∈ env p ∨ (p = a.ptr ∧ x = co.trim v) := by
  unfold Storable at h
  obtain ⟨ptr, body⟩ := a
  cases body with
  | float n k =>
    simp only [Attr.isCat, Bool.false_eq_true, false_or, hv] at h
    obtain ⟨b, hb⟩ := Option.isSome_iff_exists.1 h
    refine ⟨packU64 b, env, by simp [sysValFromString, hb], EnvGrows.refl _ _, ⟨b, hb, rfl⟩, ?_,
      fun p x hx => Or.inl hx⟩
    simp [wellFormed, Attr.isBin, packU64_length]
  | bin n =>
    simp only [Attr.isCat, Bool.false_eq_true, false_or, hv] at h
    obtain ⟨b, hb⟩ := Option.isSome_iff_exists.1 h
    refine ⟨if f64Pos b then [1#8] else [0#8], env, by simp [sysValFromString, hb], EnvGrows.refl _ _,
      ⟨b, hb, rfl⟩, ?_, fun p x hx => Or.inl hx⟩
    simp only [wellFormed, Attr.isBin, if_true]
    split
    · exact Or.inr rfl
    · exact Or.inl rfl
  | cat n vs =>
    have hgr : ∀ (q : List String), env ptr <+: q → q.length ≤ (env ptr).length + 1 →
        ((env ptr).Nodup → q.Nodup) → EnvGrows env (fun p => if p = ptr then q else env p) 1 := by
      intro q h1 h2 h3
      refine ⟨?_, ?_, ?_⟩
      · intro p
        by_cases hp : p = ptr
        · subst hp; simpa using h1
        · simp [hp]
      · intro p
        by_cases hp : p = ptr
        · subst hp; simpa using h2
        · simp [hp]
      · intro p
        by_cases hp : p = ptr
        · subst hp; simpa using h3
        · simp [hp]
    by_cases hm : co.trim v ∈ env ptr
    · refine ⟨packU64 (BitVec.ofNat 64 ((env ptr).idxOf (co.trim v))),
        fun p => if p = ptr then env ptr else env p, ?_, hgr _ (List.prefix_refl _) (by omega) id, ?_, ?_, ?_⟩
      · simp [sysValFromString, catIntern, findValue_eq, hm]
      · refine ⟨(env ptr).idxOf (co.trim v), ?_, rfl⟩
        simp only [if_true]
        rw [List.getElem?_eq_getElem (List.idxOf_lt_length_iff.2 hm), List.getElem_idxOf]
      · simp [wellFormed, Attr.isBin, packU64_length]
      · intro p x hx
        left
        by_cases hp : p = ptr
        · subst hp; simpa using hx
        · simpa [hp] using hx
    · refine ⟨packU64 (BitVec.ofNat 64 (env ptr).length),
        fun p => if p = ptr then env ptr ++ [co.trim v] else env p, ?_,
        hgr _ (List.prefix_append _ _) (by simp) ?_, ?_, ?_, ?_⟩
      · simp [sysValFromString, catIntern, findValue_eq, hm]
      · intro hn
        rw [List.nodup_append]
        refine ⟨hn, by simp, ?_⟩
        intro x hx y hy e
        rw [List.mem_singleton] at hy
        exact hm (hy ▸ e ▸ hx)
      · refine ⟨(env ptr).length, ?_, rfl⟩
        simp
      · simp [wellFormed, Attr.isBin, packU64_length]
      · intro p x hx
        by_cases hp : p = ptr
        · subst hp
          simp only [if_true, List.mem_append, List.mem_singleton] at hx
          rcases hx with hx | hx
          · exact Or.inl hx
          · exact Or.inr ⟨rfl, hx⟩
        · left; simpa [hp] using hx

/-- One record fills one row. -/
theorem csvRecord_spec (co : CsvOps) {rows row : Nat} (hrow : row < rows) (vs : List String) :
    ∀ (d : Dense) (env : ValEnv) (specs : List Spec), DenseOK rows d →
      (∀ s ∈ specs, s.attr ∈ d.allAttributes ∧ d.getAttribute s.attr = Res.ok s) →
      (specs.map Spec.attr).Nodup → vs.length ≤ specs.length →
      (∀ p ∈ specs.zip vs, Storable co p.1.attr p.2) →
      ∃ d' env', csvRecord co row d env specs vs = Res.ok (d', env') ∧ DenseOK rows d' ∧
        d'.allAttributes = d.allAttributes ∧ d'.classAttrs = d.classAttrs ∧
        (∀ b, d'.getAttribute b = d.getAttribute b) ∧ EnvGrows env env' vs.length ∧
        (∀ p x, x ∈ env' p → x ∈ env p ∨ ∃ q ∈ specs.zip vs, q.1.attr.ptr = p ∧ q.2 ≠ "" ∧ x = co.trim q.2) ∧
        (∀ q ∈ specs.zip vs, if q.2 = "" then
            (Grid.dense d').cell q.1.attr row = (Grid.dense d).cell q.1.attr row
          else Stored co env' q.1.attr q.2 ((Grid.dense d').cell q.1.attr row)) ∧
        (∀ b ∈ d.allAttributes, ∀ r, r < rows → (r ≠ row ∨ b ∉ specs.map Spec.attr) →
          (Grid.dense d').cell b r = (Grid.dense d).cell b r) := by
  induction vs with
  | nil =>
    intro d env specs D _ _ _ _
    exact ⟨d, env, by cases specs <;> rfl, D, rfl, rfl, fun _ => rfl, EnvGrows.refl _ _,
      fun p x hx => Or.inl hx, by simp, fun _ _ _ _ _ => rfl⟩
  | cons v vs ih =>
    intro d env specs D hs hn hl hst
    cases specs with
    | nil => simp at hl
    | cons s ss =>
      obtain ⟨hsm, hsg⟩ := hs s (by simp)
      rw [List.map_cons, List.nodup_cons] at hn
      by_cases hv : v = ""
      · obtain ⟨d', env', e, D', A, C, L, G, V, S, U⟩ := ih d env ss D (fun t ht => hs t (by simp [ht])) hn.2
          (by simpa using hl) (fun p hp => hst p (by simp [hp]))
        refine ⟨d', env', ?_, D', A, C, L, ?_, ?_, ?_, ?_⟩
        · rw [csvRecord, if_pos hv]; exact e
        · have := (EnvGrows.refl env 1).trans G
          rw [Nat.add_comm] at this
          exact this
        · intro p x hx
          rcases V p x hx with h | ⟨q, hq, h⟩
          · exact Or.inl h
          · exact Or.inr ⟨q, by simp [hq], h⟩
        · intro q hq
          rw [List.zip_cons_cons, List.mem_cons] at hq
          rcases hq with rfl | hq
          · rw [if_pos hv]
            exact U _ hsm row hrow (Or.inr hn.1)
          · exact S q hq
        · intro b hb r hr h
          refine U b hb r hr ?_
          rcases h with h | h
          · exact Or.inl h
          · right; intro hb'; exact h (by rw [List.map_cons]; exact List.mem_cons_of_mem _ hb')
      · obtain ⟨c, env1, e1, G1, S1, W1, V1⟩ := sysVal_spec (env := env) hv (hst (s, v) (by simp))
        obtain ⟨d1, s1, D1, A1, C1, L1, _, X1⟩ := D.set hsm hsg hrow W1
        obtain ⟨d', env', e, D', A, C, L, G, V, S, U⟩ := ih d1 env1 ss D1
          (fun t ht => by rw [A1, L1]; exact hs t (by simp [ht])) hn.2
          (by simpa using hl) (fun p hp => hst p (by simp [hp]))
        refine ⟨d', env', ?_, D', by rw [A, A1], by rw [C, C1], fun b => by rw [L, L1], ?_, ?_, ?_, ?_⟩
        · rw [csvRecord, if_neg hv]
          simp only [e1, Res.bind_ok, s1]
          exact e
        · have := G1.trans G
          rw [Nat.add_comm] at this
          exact this
        · intro p x hx
          rcases V p x hx with h | ⟨q, hq, h⟩
          · rcases V1 p x h with h | ⟨h1, h2⟩
            · exact Or.inl h
            · exact Or.inr ⟨(s, v), by simp, h1.symm, hv, h2⟩
          · exact Or.inr ⟨q, by simp [hq], h⟩
        · intro q hq
          rw [List.zip_cons_cons, List.mem_cons] at hq
          rcases hq with rfl | hq
          · rw [if_neg hv]
            simp only
            rw [U _ (A1 ▸ hsm) row hrow (Or.inr hn.1), X1 _ hsm row hrow, if_pos ⟨rfl, rfl⟩]
            exact S1.mono G
          · have hne : q.1.attr ≠ s.attr := by
              intro h
              have : q.1 ∈ ss := (List.of_mem_zip hq).1
              exact hn.1 (h ▸ List.mem_map_of_mem this)
            have hqm := (hs q.1 (List.mem_cons_of_mem _ (List.of_mem_zip hq).1)).1
            have := S q hq
            by_cases h0 : q.2 = ""
            · rw [if_pos h0] at this ⊢
              rw [this, X1 _ hqm row hrow, if_neg (fun h => hne h.1)]
            · rw [if_neg h0] at this ⊢
              exact this
        · intro b hb r hr h
          have h' : r ≠ row ∨ b ∉ ss.map Spec.attr := by
            rcases h with h | h
            · exact Or.inl h
            · right; intro hb'; exact h (by rw [List.map_cons]; exact List.mem_cons_of_mem _ hb')
          rw [U b (A1 ▸ hb) r hr h', X1 b hb r hr, if_neg]
          rintro ⟨h1, h2⟩
          rcases h with h | h
          · exact h h2
          · exact h (by rw [h1]; simp)

/-- The records fill consecutive rows. -/
theorem csvRecords_spec (co : CsvOps) {rows : Nat} (specs : List Spec) (hn : (specs.map Spec.attr).Nodup)
    (recs : List (List String)) :
    ∀ (row : Nat) (d : Dense) (env : ValEnv), row + recs.length ≤ rows → DenseOK rows d →
      (∀ s ∈ specs, s.attr ∈ d.allAttributes ∧ d.getAttribute s.attr = Res.ok s) →
      (∀ r ∈ recs, r.length = specs.length ∧ ∀ p ∈ specs.zip r, Storable co p.1.attr p.2) →
      ∃ d' env', csvRecords co specs row d env recs = Res.ok (d', env') ∧ DenseOK rows d' ∧
        d'.allAttributes = d.allAttributes ∧ d'.classAttrs = d.classAttrs ∧
        (∀ b, d'.getAttribute b = d.getAttribute b) ∧ EnvGrows env env' (recs.length * specs.length) ∧
        (∀ p x, x ∈ env' p → x ∈ env p ∨ ∃ r ∈ recs, ∃ q ∈ specs.zip r,
          q.1.attr.ptr = p ∧ q.2 ≠ "" ∧ x = co.trim q.2) ∧
        (∀ i (h : i < recs.length), ∀ q ∈ specs.zip recs[i], if q.2 = "" then
            (Grid.dense d').cell q.1.attr (row + i) = (Grid.dense d).cell q.1.attr (row + i)
          else Stored co env' q.1.attr q.2 ((Grid.dense d').cell q.1.attr (row + i))) ∧
        (∀ b ∈ d.allAttributes, ∀ r, r < rows → (r < row ∨ row + recs.length ≤ r ∨ b ∉ specs.map Spec.attr) →
          (Grid.dense d').cell b r = (Grid.dense d).cell b r) := by
  induction recs with
  | nil =>
    intro row d env _ D _ _
    exact ⟨d, env, rfl, D, rfl, rfl, fun _ => rfl, EnvGrows.refl _ _, fun p x hx => Or.inl hx, by simp,
      fun _ _ _ _ _ => rfl⟩
  | cons r rs ih =>
    intro row d env hle D hs hst
    rw [List.length_cons] at hle
    obtain ⟨d1, env1, e1, D1, A1, C1, L1, G1, V1, S1, U1⟩ := csvRecord_spec co (rows := rows) (row := row)
      (by omega) r d env specs D hs hn (Nat.le_of_eq (hst r (by simp)).1) (hst r (by simp)).2
    obtain ⟨d', env', e, D', A, C, L, G, V, S, U⟩ := ih (row + 1) d1 env1 (by omega) D1
      (fun s h => by rw [A1, L1]; exact hs s h) (fun q hq => hst q (by simp [hq]))
    refine ⟨d', env', ?_, D', by rw [A, A1], by rw [C, C1], fun b => by rw [L, L1], ?_, ?_, ?_, ?_⟩
    · rw [csvRecords, e1, Res.bind_ok]; exact e
    · have := G1.trans G
      rw [(hst r (by simp)).1] at this
      rw [List.length_cons, Nat.succ_mul, Nat.add_comm]
      exact this
    · intro p x hx
      rcases V p x hx with h | ⟨q, hq, h⟩
      · rcases V1 p x h with h | h
        · exact Or.inl h
        · exact Or.inr ⟨r, by simp, h⟩
      · exact Or.inr ⟨q, by simp [hq], h⟩
    · intro i hi q hq
      cases i with
      | zero =>
        simp only [List.getElem_cons_zero] at hq
        have hqm := (hs q.1 (List.of_mem_zip hq).1).1
        have h0 : (Grid.dense d').cell q.1.attr row = (Grid.dense d1).cell q.1.attr row :=
          U _ (A1 ▸ hqm) row (by omega) (Or.inl (by omega))
        have := S1 q hq
        rw [Nat.add_zero, h0]
        by_cases hq0 : q.2 = ""
        · rw [if_pos hq0] at this ⊢; exact this
        · rw [if_neg hq0] at this ⊢; exact this.mono G
      | succ i =>
        simp only [List.getElem_cons_succ] at hq
        have hi' : i < rs.length := by simpa using hi
        have hqm := (hs q.1 (List.of_mem_zip hq).1).1
        have := S i hi' q hq
        rw [show row + (i + 1) = row + 1 + i by omega]
        by_cases hq0 : q.2 = ""
        · rw [if_pos hq0] at this ⊢
          rw [this]
          exact U1 _ hqm _ (by omega) (Or.inl (by omega))
        · rw [if_neg hq0] at this ⊢; exact this
    · intro b hb q hq h
      rw [List.length_cons] at h
      rw [U b (A1 ▸ hb) q hq (by rcases h with h | h | h <;> [left; (right; left); exact Or.inr (Or.inr h)] <;> omega)]
      exact U1 b hb q hq (by rcases h with h | h | h <;> [left; left; exact Or.inr h] <;> omega)

theorem equals_name {a b : Attr} (h : a.equals b = true) : a.name = b.name := by
  obtain ⟨p, x⟩ := a
  obtain ⟨q, y⟩ := b
  cases x <;> cases y <;> simp_all [Attr.equals, Attr.name]

theorem addAll_classAttrs (pg : Nat) (as : List Attr) (d d' : Dense) (h : addAll pg d as = Res.ok d') :
    d'.classAttrs = d.classAttrs := by
  induction as generalizing d with
  | nil => simp only [addAll, Res.ok.injEq] at h; rw [h]
  | cons a as ih =>
    simp only [addAll, Res.bind_eq_ok] at h
    obtain ⟨p, hp, h⟩ := h
    rw [ih _ h]
    unfold Dense.addAttribute at hp
    split at hp
    · cases hp
    · have hc : (d.chooseGroup pg a).1.classAttrs = d.classAttrs := by
        unfold Dense.chooseGroup; split <;> rfl
      revert hp
      generalize d.chooseGroup pg a = q at hc ⊢
      obtain ⟨d1, ag, ib⟩ := q
      intro hp
      simp only [Res.bind_eq_ok] at hp
      obtain ⟨d2, h2, h3⟩ := hp
      have hc2 : d2.classAttrs = d.classAttrs := by
        split at h2
        · rw [Res.ok.injEq] at h2; rw [← h2]; exact hc
        · unfold Dense.createGroup at h2
          split at h2
          · cases h2
          · rw [Res.ok.injEq] at h2; rw [← h2]; exact hc
      split at h3
      · cases h3
      · unfold Dense.pushAttr at h3
        split at h3
        · cases h3
        · rw [Res.ok.injEq] at h3; rw [← h3]; exact hc2

/-- Pairwise different attributes added to a new grid, with `n` rows allocated: everything is zero. -/
theorem fresh_build (pg : Nat) (as : List Attr) (n : Nat)
    (hd : as.Pairwise (fun a b => a.equals b = false)) :
    ∃ d, addAll pg Dense.new as = Res.ok d ∧ DenseOK n (d.extend n) ∧
      (d.extend n).allAttributes.Perm as ∧ (d.extend n).classAttrs = [] ∧
      ∀ a ∈ as, a.isBin = false → ∀ r, r < n → (Grid.dense (d.extend n)).cell a r = packU64 0 := by
  obtain ⟨st, a1, r1⟩ := addAll_run pg as [] St.init (by simp) rfl (by simp)
  rw [List.nil_append] at r1
  obtain ⟨d1, d2, b1, b2, D, hp, _⟩ := build_spec pg as [] n (by simpa using hd)
  simp only [addAllClass, Res.ok.injEq] at b2
  subst b2
  rw [List.append_nil] at hp
  have e : d1 = st.d := by
    have := b1.symm.trans a1
    simpa using this
  subst e
  refine ⟨st.d, b1, D, hp, addAll_classAttrs pg as _ _ b1, ?_⟩
  intro a ha hbin r hr
  have hb : ∀ op ∈ as.map Op.add, basicOp op = true := by
    intro op hop
    obtain ⟨a, _, rfl⟩ := List.mem_map.1 hop
    rfl
  have h0 : totalRows (as.map Op.add) = 0 := by
    clear * -
    induction as with
    | nil => rfl
    | cons a as ih => simpa [totalRows, rowsOf] using ih
  obtain ⟨I, _, _⟩ := run_inv pg _ st (basic_noLate hb) r1
  obtain ⟨B, hat⟩ := run_basic pg _ st hb r1
  rw [addedAttrs_adds] at hat
  have hm : a ∈ st.handles.map Spec.attr := by rw [hat]; exact ha
  obtain ⟨s, hs, hsa⟩ := List.mem_map.1 hm
  obtain ⟨h, hh, hhs⟩ := List.getElem_of_mem hs
  have hgt : st.handles[h]? = some s := by rw [List.getElem?_eq_getElem hh, hhs]
  obtain ⟨k, hk, hg⟩ := ((C05_extend pg _ st n (basic_noLate hb) r1).2.2.2.2 h s hgt).2 r (by omega) (by omega)
  have hk' := B.stored h s hgt
  rw [hk, Option.some.injEq, hsa, defaultKind, if_neg (by simp [hbin])] at hk'
  subst hk'
  have I' := I.extend (n := n) (run_inv pg _ st (basic_noLate hb) r1).2.1
  have hc := dense_cell I' D.1 hs (r := r) (by omega)
  rw [hsa] at hc
  have hc' : (st.d.extend n).get s r = Res.ok ((Grid.dense (st.d.extend n)).cell a r) := hc
  rw [hg, Res.ok.injEq] at hc'
  rw [← hc']
  decide

theorem resolve_spec {rows : Nat} {d : Dense} (D : DenseOK rows d) (srt : List Spec → List Spec)
    (as : List Attr) (ha : ∀ a ∈ as, a ∈ d.allAttributes) (hs : ∀ l : List Spec, l.length = as.length → srt l = l) :
    ∃ specs, (Grid.dense d).resolve srt as = Res.ok specs ∧ specs.map Spec.attr = as ∧
      ∀ s ∈ specs, s.attr ∈ d.allAttributes ∧ d.getAttribute s.attr = Res.ok s := by
  have key : ∃ specs, (Grid.dense d).resolveUnsorted as = Res.ok specs ∧ specs.map Spec.attr = as ∧
      ∀ s ∈ specs, s.attr ∈ d.allAttributes ∧ d.getAttribute s.attr = Res.ok s := by
    clear hs
    induction as with
    | nil => exact ⟨[], rfl, rfl, by simp⟩
    | cons a as ih =>
      obtain ⟨s, h1, h2, _⟩ := D.presents.read a (ha a (by simp))
      obtain ⟨l, e, m, w⟩ := ih (fun b hb => ha b (by simp [hb]))
      refine ⟨s :: l, ?_, by simp [h2, m], ?_⟩
      · simp only [Grid.resolveUnsorted] at e
        simp only [Grid.resolveUnsorted, mapRes, h1, Res.bind_ok, e]
      · intro t ht
        rcases List.mem_cons.1 ht with rfl | ht
        · rw [h2]; exact ⟨ha a (by simp), h1⟩
        · exact w t ht
  obtain ⟨specs, e, m, w⟩ := key
  refine ⟨specs, ?_, m, w⟩
  have hl : specs.length = as.length := by rw [← m, List.length_map]
  unfold Grid.resolve
  rw [e]
  simp [hs specs hl]

end Golearn
