import Verif.Props.C76
import Verif.Props.C166

/-! # C168: what expectation maximisation looks at -/

namespace Golearn

variable {K Cov : Type}

/-- The component of a row depends on its own numbers in the columns of the model only: a row `r` of one table and a row `r'` of another one
with the same numbers in these columns get the same component, whatever the other rows and columns are. -/
theorem C168_predict [LinearOrder K] [Zero K] (lib : EmLib K Cov) (val : U64 → K) (srt : List Spec → List Spec) (hsrt : PositionSort srt)
    (order order' : List Nat) (g g' : Grid) (n n' : Nat) (P : g.Presents n) (T : g.typed n) (ho : g.RowOrder order)
    (P' : g'.Presents n') (T' : g'.typed n') (ho' : g'.RowOrder order')
    (em : EmModel K Cov) (hf : g.Finds em.attrs) (hf' : g'.Finds em.attrs) (hfl : ∀ a ∈ em.attrs, a.isFloat = true) (hne : em.attrs ≠ [])
    (comps : Nat) (hc : 0 < comps) (lp : Nat → List K → WithBot K) (hlp : HasNormals lib em.params comps lp)
    (r r' : Nat) (hr : r < n) (hr' : r' < n') (hsame : ∀ a ∈ em.attrs, g'.number val a r' = g.number val a r) :
    ∃ cs cs', emPredict lib val srt order (some em) comps g = Res.ok cs ∧ emPredict lib val srt order' (some em) comps g' = Res.ok cs' ∧
      ∀ k, (∃ l, (k, l) ∈ cs' ∧ r' ∈ l) ↔ ∃ l, (k, l) ∈ cs ∧ r ∈ l := by
  obtain ⟨fs, hfs, hsp⟩ := positionSort_attrs hsrt em.attrs
  obtain ⟨cs, e, _, h1, h2⟩ := emPredict_fs lib val srt order g n P T ho (by omega) em hf hfl hne comps hc lp hlp fs hfs hsp
  obtain ⟨cs', e', _, h1', h2'⟩ := emPredict_fs lib val srt order' g' n' P' T' ho' (by omega) em hf' hfl hne comps hc lp hlp fs hfs hsp
  have hp : g'.point val fs r' = g.point val fs r := List.map_congr_left fun a ha => hsame a (hfs.subset ha)
  have huniq : ∀ {v : Nat → WithBot K} {k k'}, FirstBest comps v k → FirstBest comps v k' → k = k' := by
    intro v k k' h h'
    rcases Nat.lt_trichotomy k k' with hlt | e | hlt
    · exact absurd (h.2.1 k' h'.1) (not_le.mpr (h'.2.2 k hlt))
    · exact e
    · exact absurd (h'.2.1 k h.1) (not_le.mpr (h.2.2 k' hlt))
  obtain ⟨c, l, hl, hrl⟩ := h2 r hr
  obtain ⟨c', l', hl', hrl'⟩ := h2' r' hr'
  have b := (((h1 c l hl).2.2.2 r).1 hrl).2
  have b' := (((h1' c' l' hl').2.2.2 r').1 hrl').2
  rw [hp] at b'
  have hcc : c' = c := huniq b' b
  subst hcc
  refine ⟨cs, cs', e, e', fun k => ⟨?_, ?_⟩⟩
  · rintro ⟨m, hm, hrm⟩
    have := (((h1' k m hm).2.2.2 r').1 hrm).2
    rw [hp] at this
    rw [huniq this b]
    exact ⟨l, hl, hrl⟩
  · rintro ⟨m, hm, hrm⟩
    rw [huniq (((h1 k m hm).2.2.2 r).1 hrm).2 b]
    exact ⟨l', hl', hrl'⟩

/-- Fitting looks at the numbers of the columns that are not class columns only: two tables with the same such columns, in the same order, and
the same numbers in them give the same model, for the same random draws. -/
theorem C168_fit [Field K] [LinearOrder K] (lib : EmLib K Cov) (eps : K) (val : U64 → K) (srt : List Spec → List Spec) (hsrt : PositionSort srt)
    (draw : Nat → Nat → K) (order order' : List Nat) (g g' : Grid) (n : Nat) (P : g.Presents n) (T : g.typed n) (ho : g.RowOrder order)
    (P' : g'.Presents n) (T' : g'.typed n) (ho' : g'.RowOrder order') (hn : 0 < n) (attrs : List Attr)
    (hf : g.Finds attrs) (hf' : g'.Finds attrs) (hfl : ∀ a ∈ attrs, a.isFloat = true) (hne : attrs ≠ [])
    (hsame : SameNumbers val g g' n attrs) (comps fuel : Nat) :
    emFit lib eps val srt draw order' g' attrs comps fuel = emFit lib eps val srt draw order g attrs comps fuel := by
  obtain ⟨fs, hfs, hsp⟩ := positionSort_attrs hsrt attrs
  obtain ⟨⟨sp, hs⟩, hX⟩ := emMatrix_ok P T hf hfl hne hn hfs hsp ho val
  obtain ⟨⟨sp', hs'⟩, hX'⟩ := emMatrix_ok P' T' hf' hfl hne hn hfs hsp ho' val
  have hp : (List.range n).map (g'.point val fs) = (List.range n).map (g.point val fs) :=
    List.map_congr_left fun r hr => List.map_congr_left fun a ha =>
      hsame a (hfs.subset ha) (hfl a (hfs.subset ha)) r (List.mem_range.1 hr)
  unfold emFit
  rw [hs, hs', hX, hX', hp, P.rows, P'.rows]

namespace C168
open C166
def small : List Op := [.add x, .extend 3, .set 0 0 (packU64 1), .set 0 1 (packU64 9), .set 0 2 (packU64 2)]
/-- The same numbers with a further column. -/
def wide : List Op := [.add z, .add x, .extend 3, .set 1 0 (packU64 1), .set 1 1 (packU64 9), .set 1 2 (packU64 2), .set 0 0 (packU64 7)]
/-- Other rows; the last one has the number 9. -/
def other : List Op := [.add c, .add x, .extend 2, .set 1 0 (packU64 0), .set 1 1 (packU64 9)]
/-- A library whose log-probability is minus the distance. -/
def lib : EmLib ℚ Unit :=
  ⟨fun m _ => some fun x => ((-|x.headD 0 - m.headD 0| : ℚ) : WithBot ℚ), fun _ => (), fun _ => 0, fun _ => (), id⟩
def model : EmModel ℚ Unit := ⟨[x], ⟨[[1], [8]], [(), ()]⟩⟩
end C168

open C166 C168 in
/-- Three tables meet the hypotheses. The row with the number 9 is in the second component in the first and in the last table. A fit of the
first two tables gives the same model. -/
theorem C168_witness : ∃ st st' st'', run 4096 small = Res.ok st ∧ run 4096 wide = Res.ok st' ∧ run 4096 other = Res.ok st'' ∧
    (Grid.dense st.d).Presents 3 ∧ (Grid.dense st.d).typed 3 ∧ (Grid.dense st'.d).Presents 3 ∧ (Grid.dense st'.d).typed 3 ∧
    (Grid.dense st''.d).Presents 2 ∧ (Grid.dense st''.d).typed 2 ∧
    (Grid.dense st.d).RowOrder [0, 1, 2] ∧ (Grid.dense st'.d).RowOrder [0, 1, 2] ∧ (Grid.dense st''.d).RowOrder [0, 1] ∧
    (Grid.dense st.d).Finds [x] ∧ (Grid.dense st'.d).Finds [x] ∧ (Grid.dense st''.d).Finds [x] ∧ PositionSort (id : List Spec → List Spec) ∧
    (∃ lp, HasNormals lib model.params 2 lp) ∧ SameNumbers val (.dense st.d) (.dense st'.d) 3 [x] ∧
    (∀ a ∈ [x], (Grid.dense st''.d).number val a 1 = (Grid.dense st.d).number val a 1) ∧
    emPredict lib val id [0, 1, 2] (some model) 2 (.dense st.d) = Res.ok [(0, [0, 2]), (1, [1])] ∧
    emPredict lib val id [0, 1] (some model) 2 (.dense st''.d) = Res.ok [(0, [0]), (1, [1])] ∧
    ((emFit lib 1 val id (fun k _ => k) [0, 1, 2] (.dense st.d) [x] 2 9).map fun m => m.map fun m => (m.attrs, m.params.means)) =
      some (Res.ok ([x], [[3 / 2], [9]])) := by
  have h : ((run 4096 small).bind fun st => (run 4096 wide).bind fun st' => (run 4096 other).map fun st'' =>
      [decide (∀ a ∈ [x], a ∈ Grid.allAttributes (.dense st.d)), decide (∀ a ∈ [x], a ∈ Grid.allAttributes (.dense st'.d)),
       decide (∀ a ∈ [x], a ∈ Grid.allAttributes (.dense st''.d)),
       decide (∀ a ∈ [x], ∀ r ∈ List.range 3, (Grid.dense st'.d).number val a r = (Grid.dense st.d).number val a r),
       decide (∀ a ∈ [x], (Grid.dense st''.d).number val a 1 = (Grid.dense st.d).number val a 1),
       decide (emPredict lib val id [0, 1, 2] (some model) 2 (.dense st.d) = Res.ok [(0, [0, 2]), (1, [1])]),
       decide (emPredict lib val id [0, 1] (some model) 2 (.dense st''.d) = Res.ok [(0, [0]), (1, [1])]),
       decide (((emFit lib 1 val id (fun k _ => k) [0, 1, 2] (.dense st.d) [x] 2 9).map fun m => m.map fun m =>
         (m.attrs, m.params.means)) = some (Res.ok ([x], [[3 / 2], [9]])))]) = Res.ok (List.replicate 8 true) := by
    decide +kernel
  obtain ⟨st, r1, h⟩ := Res.bind_eq_ok.1 h
  obtain ⟨st', r2, h⟩ := Res.bind_eq_ok.1 h
  obtain ⟨st'', r3, h⟩ := Res.map_eq_ok.1 h
  simp only [List.replicate, List.cons.injEq, decide_eq_true_eq] at h
  obtain ⟨h1, h2, h3, h4, h5, h6, h7, h8, _⟩ := h
  have D : DenseOK 3 st.d := denseOK_run (by decide) r1 (by decide)
  have D' : DenseOK 3 st'.d := denseOK_run (by decide) r2 (by decide)
  have D'' : DenseOK 2 st''.d := denseOK_run (by decide) r3 (by decide)
  refine ⟨st, st', st'', r1, r2, r3, D.presents, D.typed, D'.presents, D'.typed, D''.presents, D''.typed, ?_, ?_, ?_, finds_self h1,
    finds_self h2, finds_self h3, C160.idSort, ?_, fun a ha _ r hr => h4 a ha r (List.mem_range.2 hr), h5, h6, h7, h8⟩
  · have e : st.d.maxRow = 3 := D.presents.rows
    show [0, 1, 2] = List.range st.d.maxRow
    rw [e]
    rfl
  · have e : st'.d.maxRow = 3 := D'.presents.rows
    show [0, 1, 2] = List.range st'.d.maxRow
    rw [e]
    rfl
  · have e : st''.d.maxRow = 2 := D''.presents.rows
    show [0, 1] = List.range st''.d.maxRow
    rw [e]
    rfl
  · refine ⟨fun k x => ((-|x.headD 0 - (if k = 0 then 1 else 8)| : ℚ) : WithBot ℚ), fun k hk => ?_⟩
    match k, hk with
    | 0, _ => exact ⟨[1], (), rfl, rfl, rfl⟩
    | 1, _ => exact ⟨[8], (), rfl, rfl, rfl⟩

end Golearn
