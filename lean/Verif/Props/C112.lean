import Verif.Proofs.Frame

/-! # C112: data frames -/

namespace Golearn

/-- The data set made of a data frame has its columns, under their names and in the same number, one row for each of its rows, and the chosen
column as class. A column whose first value is a string is categorical and shows the texts of the frame; other columns are numeric and hold the
numbers that the texts of the values read as. -/
theorem C112_frame_partial (pg : Nat) (fo : FrameOps) (fresh : Nat → Nat) (f : Frame) (cls : Int) (hg : f.Good) (hc : f.Convertible fo cls)
    (hbig : f.rows * f.cols.length < 2 ^ 64) (hfresh : ∀ i j, fresh i = fresh j → i = j) :
    ∃ d env as, convertFrame pg fo fresh f cls = Res.ok (d, env) ∧ Framed fo f cls d env as :=
  convertFrame_spec pg fo fresh f cls hg hc hbig hfresh

/-- Exactly these frames can be converted; the conversion of every other one panics. In particular that of a frame without rows, with a missing
value in the first row, or with a missing value in a numeric column. -/
theorem C112_otherwise_panics (pg : Nat) (fo : FrameOps) (fresh : Nat → Nat) (f : Frame) (cls : Int) (hg : f.Good) (hc : ¬ f.Convertible fo cls) :
    convertFrame pg fo fresh f cls = Res.panic := by
  cases h : convertFrame pg fo fresh f cls with
  | ok q => exact absurd (convertFrame_only pg fo fresh f cls hg q h) hc
  | err => exact absurd h (convertFrame_ne_err _ _ _ _ _)
  | panic => rfl

/-- A missing value in a numeric column is a panic, as the empty text is no number. -/
theorem C112_missing_panics (pg : Nat) (fo : FrameOps) (hp : fo.parse "" = none) (fresh : Nat → Nat) (f : Frame) (cls : Int) (hg : f.Good)
    (i j : Nat) (hm : f.val i j = some .nil) (ht : f.isText j = false) : convertFrame pg fo fresh f cls = Res.panic := by
  apply C112_otherwise_panics _ _ _ _ _ hg
  intro hc
  have := hc.numbers i j _ hm ht
  rw [frameText, hp] at this
  cases this

/-- A float that the text with six decimals gives back is stored as it is. -/
theorem C112_float_kept (pg : Nat) (fo : FrameOps) (fresh : Nat → Nat) (f : Frame) (cls : Int) (hg : f.Good) (hc : f.Convertible fo cls)
    (hbig : f.rows * f.cols.length < 2 ^ 64) (hfresh : ∀ i j, fresh i = fresh j → i = j) (i j : Nat) (u : U64)
    (hv : f.val i j = some (.f64 u)) (ht : f.isText j = false) (hu : fo.parse (fo.fmt64 u) = some u) :
    ∃ d env, convertFrame pg fo fresh f cls = Res.ok (d, env) ∧ ∀ a ∈ d.allAttributes, (f.cols[j]?).map Prod.fst = some a.name →
      ∃ s, d.getAttribute a = Res.ok s ∧ d.get s i = Res.ok (packU64 u) := by
  obtain ⟨d, env, as, h, F⟩ := convertFrame_spec pg fo fresh f cls hg hc hbig hfresh
  refine ⟨d, env, h, ?_⟩
  intro a ha hn
  obtain ⟨k, hk⟩ := List.mem_iff_getElem?.1 (F.attrs.subset ha)
  have hk' : (f.cols.map Prod.fst)[k]? = some a.name := by rw [← F.named, List.getElem?_map, hk]; rfl
  rw [← List.getElem?_map] at hn
  have e : k = j := by
    obtain ⟨q1, q2⟩ := List.getElem?_eq_some_iff.1 hk'
    obtain ⟨q3, q4⟩ := List.getElem?_eq_some_iff.1 hn
    exact (List.Nodup.getElem_inj_iff hg.1).1 (q2.trans q4.symm)
  subst e
  obtain ⟨s, c, h1, h2, h3, _⟩ := F.cells i k a _ hk hv
  obtain ⟨b, hb1, hb2⟩ := h3 (by rw [(F.kinds k a hk).2]; exact ht)
  rw [frameText, hu, Option.some.injEq] at hb1
  subst hb1
  exact ⟨s, h1, by rw [h2, hb2]⟩

namespace C112Ex

/-- One ten-millionth, as a 64-bit float. -/
def tiny : U64 := 0x3E7AD7F29ABCAF48#64
/-- One half. -/
def half : U64 := 0x3FE0000000000000#64
/-- The library on the values of the example: `%f` prints six decimals. -/
def fo : FrameOps where
  fmtInt := fun i => if i = 3 then "3" else ""
  fmt64 := fun u => if u = tiny then "0.000000" else if u = half then "0.500000" else ""
  fmt32 := fun _ => ""
  parse := fun s => if s = "0.000000" then some 0 else if s = "0.500000" then some half else if s = "3" then some 0x4008000000000000#64 else none
/-- A frame with a column of floats, one of integers and one of texts with a missing value. -/
def frame : Frame := ⟨[("x", [.f64 half, .f64 tiny]), ("n", [.int 3, .int 3]), ("c", [.str "a", .nil])], 2⟩

end C112Ex

open C112Ex

/-- The property: the floats of the frame are in the data set. -/
def FrameKeepsFloats (fo : FrameOps) : Prop := ∀ (pg : Nat) (fresh : Nat → Nat) (f : Frame) (cls : Int), f.Good → f.Convertible fo cls →
  f.rows * f.cols.length < 2 ^ 64 → (∀ i j, fresh i = fresh j → i = j) → ∀ i j u, f.val i j = some (.f64 u) → f.isText j = false →
    ∃ d env, convertFrame pg fo fresh f cls = Res.ok (d, env) ∧ ∀ a ∈ d.allAttributes, (f.cols[j]?).map Prod.fst = some a.name →
      ∃ s, d.getAttribute a = Res.ok s ∧ d.get s i = Res.ok (packU64 u)

/-- It fails for every library that prints one ten-millionth with six decimals and reads that as zero: floats are rounded to six decimals. -/
theorem C112_refuted (fo : FrameOps) (h1 : fo.fmt64 tiny = "0.000000") (h2 : fo.parse "0.000000" = some 0) : ¬ FrameKeepsFloats fo := by
  intro H
  have hv : ∀ i j v, (⟨[("x", [.f64 tiny])], 1⟩ : Frame).val i j = some v → i = 0 ∧ j = 0 ∧ v = .f64 tiny := by
    intro i j v h
    unfold Frame.val at h
    cases j with
    | zero => cases i with
      | zero => simp at h; exact ⟨rfl, rfl, h.symm⟩
      | succ i => simp at h
    | succ j => simp at h
  have hg : (⟨[("x", [.f64 tiny])], 1⟩ : Frame).Good := by unfold Frame.Good; simp
  have hc : (⟨[("x", [.f64 tiny])], 1⟩ : Frame).Convertible fo 0 := by
    refine ⟨by simp, ?_, ?_, by simp⟩
    · intro j e
      have := (hv 0 j _ e).2.2
      cases this
    · intro i j v e _
      obtain ⟨_, _, rfl⟩ := hv i j v e
      rw [frameText, h1, h2]; rfl
  obtain ⟨d, env, e1, e2⟩ := H 4096 id ⟨[("x", [.f64 tiny])], 1⟩ 0 hg hc (by simp) (fun _ _ h => h) 0 0 tiny rfl rfl
  obtain ⟨d', env', as, e1', F⟩ := convertFrame_spec 4096 fo id _ 0 hg hc (by simp) (fun _ _ h => h)
  rw [e1, Res.ok.injEq, Prod.mk.injEq] at e1'
  obtain ⟨rfl, rfl⟩ := e1'
  have hl : as.length = 1 := by
    have := congrArg List.length F.named
    simpa using this
  obtain ⟨b, rfl⟩ := List.length_eq_one_iff.1 hl
  obtain ⟨s', c, g1, g2, g3, _⟩ := F.cells 0 0 b (.f64 tiny) rfl rfl
  obtain ⟨u, hu1, hu2⟩ := g3 (by rw [(F.kinds 0 b rfl).2]; rfl)
  rw [frameText, h1, h2, Option.some.injEq] at hu1
  subst hu1
  obtain ⟨s, k1, k2⟩ := e2 b (F.attrs.symm.subset (by simp)) (by
    have := F.named
    simp only [List.map_cons, List.map_nil, List.cons.injEq, and_true] at this
    rw [this]; rfl)
  rw [g1, Res.ok.injEq] at k1
  subst k1
  rw [g2, hu2, Res.ok.injEq] at k2
  revert k2
  decide +kernel

set_option synthInstance.maxSize 1000 in
/-- The conversion of the example: the missing text is a category of its own. -/
theorem C112_witness : C112Ex.frame.Good ∧ C112Ex.frame.Convertible C112Ex.fo 2 ∧
    (∃ d env s0 s1 s2, convertFrame 4096 C112Ex.fo id C112Ex.frame 2 = Res.ok (d, env) ∧ d.getAttribute ⟨0, .float "x" 2⟩ = Res.ok s0 ∧
      d.getAttribute ⟨1, .float "n" 2⟩ = Res.ok s1 ∧ d.getAttribute ⟨2, .cat "c" []⟩ = Res.ok s2 ∧
      mapRes (d.get s0) [0, 1] = Res.ok [packU64 half, packU64 0] ∧ d.get s1 1 = Res.ok (packU64 0x4008000000000000#64) ∧
      mapRes (d.get s2) [0, 1] = Res.ok [packU64 0, packU64 1] ∧ env 2 = ["a", ""] ∧ d.allClassAttributes = [⟨2, .cat "c" []⟩]) := by
  refine ⟨⟨by decide, by decide⟩, ⟨by decide, ?_, ?_, by decide⟩, ?_⟩
  · intro j
    rcases j with _ | _ | _ | j
    all_goals simp [Frame.val, C112Ex.frame]
  · intro i j v
    rcases j with _ | _ | _ | j <;> rcases i with _ | _ | i
    all_goals simp [Frame.val, C112Ex.frame, Frame.isText]
    all_goals rintro rfl; decide +kernel
  · refine ⟨_, _, _, _, _, rfl, rfl, rfl, rfl, ?_⟩
    decide +kernel

end Golearn
