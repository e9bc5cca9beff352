import Verif.Model.Attr
import Verif.Props.C01
import Mathlib.Data.List.Nodup
import Mathlib.Data.List.Induction

/-! # C29: categorical interning is a stable bijection -/

namespace Golearn

/-- One `GetSysValFromString` call, collecting what it returns. -/
def internStep (st : List String × List Bytes) (s : String) : List String × List Bytes :=
  ((catIntern st.1 s).2, st.2 ++ [(catIntern st.1 s).1])

/-- A history of `GetSysValFromString` calls on a new `CategoricalAttribute`: the values the
attribute then has, and what each call returned. -/
def internRun (ss : List String) : List String × List Bytes := ss.foldl internStep ([], [])

theorem findValue_eq (vals : List String) (s : String) (i : Nat) :
    findValue vals s i = if s ∈ vals then some (i + vals.idxOf s) else none := by
  induction vals generalizing i with
  | nil => simp [findValue]
  | cons v vs ih =>
    unfold findValue
    by_cases h : v = s
    · subst h; simp
    · have h' : ¬ s = v := fun e => h e.symm
      simp only [beq_iff_eq, h, if_false, ih, List.mem_cons, h', false_or, List.idxOf_cons]
      have hb : (v == s) = false := by simp [h]
      simp only [hb, cond_false]
      split <;> simp <;> omega

theorem internRun_inv (ss : List String) :
    (internRun ss).1.Nodup ∧ (∀ s, s ∈ (internRun ss).1 ↔ s ∈ ss) ∧
    (internRun ss).1.Pairwise (fun a b => ss.idxOf a < ss.idxOf b) ∧
    (internRun ss).1.length ≤ ss.length ∧
    (internRun ss).2 = ss.map fun s => packU64 (BitVec.ofNat 64 ((internRun ss).1.idxOf s)) := by
  induction ss using List.reverseRecOn with
  | nil => simp [internRun]
  | append_singleton ss s ih =>
    obtain ⟨h1, h2, h3, h4, h5⟩ := ih
    have e : internRun (ss ++ [s]) = internStep (internRun ss) s := by
      simp [internRun, List.foldl_append]
    rw [e]
    unfold internStep catIntern
    rw [findValue_eq]
    have idx : ∀ a ∈ ss, (ss ++ [s]).idxOf a = ss.idxOf a := fun a ha => List.idxOf_append_of_mem ha
    by_cases hs : s ∈ (internRun ss).1
    · simp only [hs, if_true, Nat.zero_add]
      refine ⟨h1, ?_, ?_, ?_, ?_⟩
      · intro t
        rw [h2 t, List.mem_append, List.mem_singleton]
        constructor
        · exact Or.inl
        · rintro (h | rfl)
          · exact h
          · exact (h2 t).1 hs
      · refine h3.imp_of_mem ?_
        intro a b ha hb hab
        rw [idx a ((h2 a).1 ha), idx b ((h2 b).1 hb)]
        exact hab
      · simp; omega
      · rw [h5]; simp
    · simp only [hs, if_false]
      have hss : s ∉ ss := fun h => hs ((h2 s).2 h)
      refine ⟨?_, ?_, ?_, ?_, ?_⟩
      · rw [List.nodup_append]
        refine ⟨h1, by simp, ?_⟩
        intro a ha b hb
        rw [List.mem_singleton] at hb
        subst hb
        exact fun e => hs (e ▸ ha)
      · intro t
        rw [List.mem_append, List.mem_append, h2 t]
      · rw [List.pairwise_append]
        refine ⟨?_, by simp, ?_⟩
        · refine h3.imp_of_mem ?_
          intro a b ha hb hab
          rw [idx a ((h2 a).1 ha), idx b ((h2 b).1 hb)]
          exact hab
        · intro a ha b hb
          rw [List.mem_singleton] at hb
          subst hb
          rw [idx a ((h2 a).1 ha), List.idxOf_append_of_notMem hss]
          have := List.idxOf_lt_length_iff.2 ((h2 a).1 ha)
          omega
      · simp; omega
      · rw [h5, List.map_append]
        congr 1
        · apply List.map_congr_left
          intro t ht
          rw [List.idxOf_append_of_mem ((h2 t).2 ht)]
        · simp [List.idxOf_append_of_notMem hs]

/-- After any history of calls the attribute's values are the distinct strings seen, in the order
they were first seen. -/
theorem C29_values (ss : List String) :
    (internRun ss).1.Nodup ∧ (∀ s, s ∈ (internRun ss).1 ↔ s ∈ ss) ∧
    (internRun ss).1.Pairwise (fun a b => ss.idxOf a < ss.idxOf b) :=
  ⟨(internRun_inv ss).1, (internRun_inv ss).2.1, (internRun_inv ss).2.2.1⟩

/-- Every call returned the position of its argument among the final values: codes are handed out
0, 1, 2, … and never change. -/
theorem C29_codes (ss : List String) (i : Nat) (h : i < ss.length) :
    ∃ k, (internRun ss).1[k]? = some ss[i] ∧
      (internRun ss).2[i]? = some (packU64 (BitVec.ofNat 64 k)) := by
  obtain ⟨_, h2, _, _, h5⟩ := internRun_inv ss
  refine ⟨(internRun ss).1.idxOf ss[i], ?_, ?_⟩
  · have := (h2 ss[i]).2 (List.getElem_mem h)
    rw [List.getElem?_eq_getElem (List.idxOf_lt_length_iff.2 this), List.getElem_idxOf]
  · conv_lhs => rw [h5]
    simp [h]

/-- Later calls do not change what earlier calls returned, nor the positions of existing values. -/
theorem C29_stable (ss ts : List String) :
    (internRun ss).1 <+: (internRun (ss ++ ts)).1 ∧ (internRun ss).2 <+: (internRun (ss ++ ts)).2 := by
  induction ts using List.reverseRecOn with
  | nil => simp
  | append_singleton ts t ih =>
    have e : internRun (ss ++ (ts ++ [t])) = internStep (internRun (ss ++ ts)) t := by
      simp [internRun, List.foldl_append]
    rw [e]
    refine ⟨ih.1.trans ?_, ih.2.trans (List.prefix_append _ _)⟩
    unfold internStep catIntern
    split
    · exact List.prefix_refl _
    · exact List.prefix_append _ _

/-- Decoding: with fewer than 2^64 calls, every code handed out at any time in the history decodes,
in the final state, to the string it was handed out for; `GetSysVal` finds the same code; and a string
never seen has no code. -/
theorem C29_decode (ss : List String) (hlen : ss.length < 2 ^ 64) (i : Nat) (h : i < ss.length) :
    ∃ c, (internRun ss).2[i]? = some c ∧ catGetString (internRun ss).1 c = Res.ok ss[i] ∧
      catGetUsrVal (internRun ss).1 c = Res.ok ss[i] ∧ catGetSysVal (internRun ss).1 ss[i] = some c ∧
      ∀ s, s ∉ ss → catGetSysVal (internRun ss).1 s = none := by
  obtain ⟨h1, h2, _, h4, h5⟩ := internRun_inv ss
  have hm := (h2 ss[i]).2 (List.getElem_mem h)
  have hlt := List.idxOf_lt_length_iff.2 hm
  have hdec : catGetString (internRun ss).1
      (packU64 (BitVec.ofNat 64 ((internRun ss).1.idxOf ss[i]))) = Res.ok ss[i] := by
    unfold catGetString
    rw [C01_unpack_pack, Res.bind_ok, BitVec.toNat_ofNat,
      Nat.mod_eq_of_lt (by omega), List.getElem?_eq_getElem hlt, List.getElem_idxOf]
  refine ⟨packU64 (BitVec.ofNat 64 ((internRun ss).1.idxOf ss[i])), ?_, hdec, hdec, ?_, ?_⟩
  · conv_lhs => rw [h5]
    simp [h]
  · simp [catGetSysVal, findValue_eq, hm]
  · intro s hs
    have : s ∉ (internRun ss).1 := fun e => hs ((h2 s).1 e)
    simp [catGetSysVal, findValue_eq, this]

/-- Two calls return the same code exactly when they were given the same string. -/
theorem C29_injective (ss : List String) (hlen : ss.length < 2 ^ 64) (i j : Nat)
    (hi : i < ss.length) (hj : j < ss.length) :
    (internRun ss).2[i]? = (internRun ss).2[j]? ↔ ss[i] = ss[j] := by
  constructor
  · intro e
    obtain ⟨c, c1, c2, _⟩ := C29_decode ss hlen i hi
    obtain ⟨d, d1, d2, _⟩ := C29_decode ss hlen j hj
    rw [c1, d1, Option.some.injEq] at e
    rw [e, d2] at c2
    exact (Res.ok.inj c2).symm
  · intro e
    conv_lhs => rw [(internRun_inv ss).2.2.2.2]
    conv_rhs => rw [(internRun_inv ss).2.2.2.2]
    simp [hi, hj, e]

/-- Four calls with three distinct strings: codes 0, 1, 0, 2. -/
example : internRun ["setosa", "versicolor", "setosa", "virginica"] =
    (["setosa", "versicolor", "virginica"], [packU64 0, packU64 1, packU64 0, packU64 2]) := by
  decide +kernel

end Golearn
