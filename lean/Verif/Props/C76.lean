import Verif.Proofs.Em
import Verif.Model.History
import Verif.Proofs.DenseTable

/-! # C76: prediction of expectation maximisation -/

namespace Golearn

variable {K Cov : Type}

theorem emPredict_fs [LinearOrder K] [Zero K] (lib : EmLib K Cov) (val : U64 → K) (srt : List Spec → List Spec)
    (order : List Nat) (g : Grid) (n : Nat) (P : g.Presents n) (T : g.typed n) (ho : g.RowOrder order) (hn : 0 < n)
    (em : EmModel K Cov) (hf : g.Finds em.attrs) (hfl : ∀ a ∈ em.attrs, a.isFloat = true) (hne : em.attrs ≠ [])
    (comps : Nat) (hc : 0 < comps) (lp : Nat → List K → WithBot K) (hlp : HasNormals lib em.params comps lp)
    (fs : List Attr) (hfs : fs.Perm em.attrs) (hsp : ∀ sp : Attr → Spec, srt (em.attrs.map sp) = fs.map sp) :
    ∃ cs : GoMap Nat (List Nat), emPredict lib val srt order (some em) comps g = Res.ok cs ∧
      (cs.map Prod.fst).Nodup ∧
      (∀ k l, (k, l) ∈ cs → k < comps ∧ l ≠ [] ∧ l.Pairwise (· < ·) ∧
        ∀ r, r ∈ l ↔ r < n ∧ FirstBest comps (fun j => lp j (g.point val fs r)) k) ∧
      ∀ r < n, ∃ k l, (k, l) ∈ cs ∧ r ∈ l := by
  obtain ⟨_, hX⟩ := emMatrix_ok P T hf hfl hne hn hfs hsp ho val
  obtain ⟨y, hy, hlen, hbest⟩ := estimate_ok hlp hc ((List.range n).map (g.point val fs))
  rw [List.length_map, List.length_range] at hlen
  have hy' : ∀ r < n, ∃ k, y[r]? = some k ∧ FirstBest comps (fun j => lp j (g.point val fs r)) k :=
    fun r hr => hbest r (g.point val fs r) (by simp [hr])
  have huniq : ∀ {v : Nat → WithBot K} {k k'}, FirstBest comps v k → FirstBest comps v k' → k = k' := by
    intro v k k' h h'
    rcases Nat.lt_trichotomy k k' with hlt | e | hlt
    · exact absurd (h.2.1 k' h'.1) (not_le.mpr (h'.2.2 k hlt))
    · exact e
    · exact absurd (h'.2.1 k h.1) (not_le.mpr (h.2.2 k' hlt))
  obtain ⟨g1, g2, g3⟩ := group_fold y.zipIdx [] (by simp)
  refine ⟨_, by simp only [emPredict]; rw [hX, Res.bind_ok, hy, Res.map_ok], g1, ?_, ?_⟩
  · intro k l hkl
    have hget := (GoMap.get?_of_mem _ g1 k l).mp hkl
    have hl : l = (y.zipIdx.filter fun p => decide (p.1 = k)).map Prod.snd := by
      have := g2 k
      rw [hget] at this
      simpa [GoMap.get?] using this
    have hmem : ∀ r, r ∈ l ↔ y[r]? = some k := by
      intro r
      rw [hl, List.mem_map]
      constructor
      · rintro ⟨q, hq, rfl⟩
        obtain ⟨h1, h2⟩ := List.mem_filter.mp hq
        rw [List.mem_zipIdx_iff_getElem?] at h1
        simp only [decide_eq_true_eq] at h2
        rw [h1, h2]
      · intro h
        exact ⟨(k, r), List.mem_filter.mpr ⟨List.mem_zipIdx_iff_getElem?.mpr h, by simp⟩, rfl⟩
    have hne : l ≠ [] := by
      have : k ∈ y.zipIdx.map Prod.fst := by
        rcases (g3 k).mp (List.mem_map.mpr ⟨_, hkl, rfl⟩) with h | h
        · simp at h
        · exact h
      obtain ⟨q, hq, rfl⟩ := List.mem_map.mp this
      rw [hl]
      intro h
      have : q.2 ∈ (y.zipIdx.filter fun p => decide (p.1 = q.1)).map Prod.snd := List.mem_map.mpr ⟨q, List.mem_filter.mpr ⟨hq, by simp⟩, rfl⟩
      rw [h] at this
      cases this
    have hrow : ∀ r, r ∈ l ↔ r < n ∧ FirstBest comps (fun j => lp j (g.point val fs r)) k := by
      intro r
      rw [hmem]
      constructor
      · intro h
        have hr : r < n := by
          rcases List.getElem?_eq_some_iff.mp h with ⟨h, _⟩
          omega
        obtain ⟨k', h1, h2⟩ := hy' r hr
        rw [h, Option.some.injEq] at h1
        exact ⟨hr, h1 ▸ h2⟩
      · rintro ⟨hr, h⟩
        obtain ⟨k', h1, h2⟩ := hy' r hr
        rw [h1, huniq h h2]
    refine ⟨?_, hne, ?_, hrow⟩
    · obtain ⟨r, hr⟩ := List.exists_mem_of_ne_nil _ hne
      exact ((hrow r).mp hr).2.1
    · rw [hl, List.pairwise_map]
      have : y.zipIdx.Pairwise fun a b => a.2 < b.2 := by
        have h := List.pairwise_lt_range' (s := 0) (n := y.length) (step := 1)
        rw [← List.zipIdx_map_snd 0 y, List.pairwise_map] at h
        exact h
      exact this.sublist List.filter_sublist
  · intro r hr
    obtain ⟨k, h1, _⟩ := hy' r hr
    have hz : (k, r) ∈ y.zipIdx := List.mem_zipIdx_iff_getElem?.mpr h1
    have hk := (g3 k).mpr (Or.inr (List.mem_map.mpr ⟨_, hz, rfl⟩))
    obtain ⟨q, hq, rfl⟩ := List.mem_map.mp hk
    refine ⟨q.1, q.2, hq, ?_⟩
    have hget := (GoMap.get?_of_mem _ g1 q.1 q.2).mp hq
    have := g2 q.1
    rw [hget] at this
    simp only [Option.getD_some, GoMap.get?, Option.getD_none, List.nil_append] at this
    rw [this]
    exact List.mem_map.mpr ⟨_, List.mem_filter.mpr ⟨hz, by simp⟩, rfl⟩

/-- `Predict` puts every row into exactly one cluster: that of the first component whose log-probability at the row is greatest. The rows of a
cluster are in ascending order, and there is a cluster for a component exactly if it has a row. -/
theorem C76_predict [LinearOrder K] [Zero K] (lib : EmLib K Cov) (val : U64 → K) (srt : List Spec → List Spec) (hsrt : PositionSort srt)
    (order : List Nat) (g : Grid) (n : Nat) (P : g.Presents n) (T : g.typed n) (ho : g.RowOrder order) (hn : 0 < n)
    (em : EmModel K Cov) (hf : g.Finds em.attrs) (hfl : ∀ a ∈ em.attrs, a.isFloat = true) (hne : em.attrs ≠ [])
    (comps : Nat) (hc : 0 < comps) (lp : Nat → List K → WithBot K) (hlp : HasNormals lib em.params comps lp) :
    ∃ (fs : List Attr) (cs : GoMap Nat (List Nat)), fs.Perm em.attrs ∧ emPredict lib val srt order (some em) comps g = Res.ok cs ∧
      (cs.map Prod.fst).Nodup ∧
      (∀ k l, (k, l) ∈ cs → k < comps ∧ l ≠ [] ∧ l.Pairwise (· < ·) ∧
        ∀ r, r ∈ l ↔ r < n ∧ FirstBest comps (fun j => lp j (g.point val fs r)) k) ∧
      ∀ r < n, ∃ k l, (k, l) ∈ cs ∧ r ∈ l := by
  obtain ⟨fs, hfs, hsp⟩ := positionSort_attrs hsrt em.attrs
  obtain ⟨cs, h⟩ := emPredict_fs lib val srt order g n P T ho hn em hf hfl hne comps hc lp hlp fs hfs hsp
  exact ⟨fs, cs, hfs, h⟩

/-- A model that was not fitted gives an error. -/
theorem C76_unfitted [LinearOrder K] [Zero K] (lib : EmLib K Cov) (val : U64 → K) (srt : List Spec → List Spec) (order : List Nat) (g : Grid)
    (comps : Nat) : emPredict lib val srt order none comps g = Res.err := rfl

namespace Witness
def eX : Attr := ⟨1, .float "x" 2⟩
def eOps : List Op := [.add eX, .extend 3, .set 0 0 (packU64 1), .set 0 1 (packU64 9), .set 0 2 (packU64 2)]
/-- A library whose log-probability is minus the distance. -/
def eLib : EmLib Int Unit :=
  ⟨fun m _ => some fun x => ((-|x.headD 0 - m.headD 0| : Int) : WithBot Int), fun _ => (), fun _ => 0, fun _ => (), id⟩
def eModel : EmModel Int Unit := ⟨[eX], ⟨[[1], [8]], [(), ()]⟩⟩
end Witness

open Witness in
example : ∃ st, run 4096 eOps = Res.ok st ∧ DenseOK 3 st.d ∧ (Grid.dense st.d).Finds [eX] ∧
    HasNormals eLib eModel.params 2 (fun k x => if k = 0 then ((-|x.headD 0 - 1| : Int) : WithBot Int) else ((-|x.headD 0 - 8| : Int) : WithBot Int)) ∧
    emPredict eLib (fun u => (u.toNat : Int)) id [0, 1, 2] (some eModel) 2 (.dense st.d) = Res.ok [(0, [0, 2]), (1, [1])] := by
  obtain ⟨st, h1, h2, h3⟩ : ∃ st, run 4096 eOps = Res.ok st ∧ st.d.allAttributes = [eX] ∧
      emPredict eLib (fun u => (u.toNat : Int)) id [0, 1, 2] (some eModel) 2 (.dense st.d) = Res.ok [(0, [0, 2]), (1, [1])] := by
    refine ⟨_, rfl, ?_, ?_⟩
    all_goals decide +kernel
  refine ⟨st, h1, ?_, ?_, ?_, h3⟩
  · exact denseOK_run (pg := 4096) (ops := eOps) (by decide) h1 (by decide)
  · intro a ha
    rw [List.mem_singleton] at ha
    subst ha
    exact ⟨eX, by show eX ∈ st.d.allAttributes; rw [h2]; simp, by decide, rfl⟩
  · intro k hk
    match k, hk with
    | 0, _ => exact ⟨[1], (), rfl, rfl, rfl⟩
    | 1, _ => exact ⟨[8], (), rfl, rfl, rfl⟩

end Golearn
