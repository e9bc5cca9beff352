import Verif.Spec.Places
import Verif.Proofs.LibGrid
import Verif.Proofs.KnnColumns

/-! # Columns by place: lemmas -/

namespace Golearn

section
variable {K : Type} [Field K] [LinearOrder K]

/-- The columns in the order in which they are read have the same numbers. -/
theorem SamePlaces.points {val : U64 → K} {srt : List Spec → List Spec} (hsrt : PositionSort srt) {g g' : Grid} {n : Nat}
    (S : SamePlaces val g g' n) :
    ∃ fs fs' : List Attr, fs.Perm g.nonClassFloats ∧ fs'.Perm g'.nonClassFloats ∧
      (∀ sp : Attr → Spec, srt (g.nonClassFloats.map sp) = fs.map sp) ∧
      (∀ sp : Attr → Spec, srt (g'.nonClassFloats.map sp) = fs'.map sp) ∧ ∀ r, r < n → g'.point val fs' r = g.point val fs r := by
  obtain ⟨σ, s1, s2⟩ := hsrt
  have hperm : ∀ as : List Attr, ((σ as.length).filterMap fun i => as[i]?).Perm as := fun as => by
    refine ((s1 as.length).filterMap _).trans ?_
    rw [filterMap_range_getElem?]
  have hsp : ∀ (as : List Attr) (sp : Attr → Spec), srt (as.map sp) = ((σ as.length).filterMap fun i => as[i]?).map sp := fun as sp => by
    rw [s2, List.length_map, List.map_filterMap]
    congr 1
    funext i
    rw [List.getElem?_map]
  refine ⟨_, _, hperm _, hperm _, hsp _, hsp _, fun r hr => ?_⟩
  have key : ∀ (u : Grid) (as : List Attr), u.point val ((σ as.length).filterMap fun i => as[i]?) r =
      (σ as.length).filterMap fun i => (as.map fun a => u.number val a r)[i]? := by
    intro u as
    show List.map _ _ = _
    rw [List.map_filterMap]
    congr 1
    funext i
    rw [List.getElem?_map]
  rw [key, key, S.columns, S.rows r hr]

/-- The rows that CART trees, isolation forests and linear models read depend on the places of the columns only. -/
theorem SamePlaces.problemVec {val : U64 → K} {srt : List Spec → List Spec} (hsrt : PositionSort srt) {g g' : Grid} {n : Nat}
    (S : SamePlaces val g g' n) {order order' : List Nat} (ho : g.RowOrder order) (ho' : g'.RowOrder order') :
    problemVec val srt order' g' = problemVec val srt order g := by
  obtain ⟨fs, fs', p, p', h, h', e⟩ := S.points hsrt
  rw [problemVec_spec S.table S.typed ho p h, problemVec_spec S.table' S.typed' ho' p' h']
  congr 1
  exact List.map_congr_left fun r hr => e r (List.mem_range.1 hr)

theorem SamePlaces.svcPredict {val : U64 → K} {srt : List Spec → List Spec} (hsrt : PositionSort srt) {g g' : Grid} {n : Nat}
    (S : SamePlaces val g g' n) (hc : g'.allClassAttributes = g.allClassAttributes) {order : List Nat} (ho : g.RowOrder order)
    (enc : Int → U64) (pg : Nat) (m : LModel K) :
    svcPredict val enc srt pg order m g' = svcPredict val enc srt pg order m g := by
  obtain ⟨fs, fs', p, p', h, h', e⟩ := S.points hsrt
  obtain ⟨sp, x1, x2⟩ := features_spec S.table S.typed (num := g.nonClassFloats)
    (fun a ha => ⟨a, (nonClassFloats_mem ha).1, C28_equals_refl a, rfl⟩) (fun a ha => (nonClassFloats_mem ha).2)
  obtain ⟨sp', x1', x2'⟩ := features_spec S.table' S.typed' (num := g'.nonClassFloats)
    (fun a ha => ⟨a, (nonClassFloats_mem ha).1, C28_equals_refl a, rfl⟩) (fun a ha => (nonClassFloats_mem ha).2)
  obtain ⟨x3, x4⟩ := x2 fs (fun a ha => p.subset ha)
  obtain ⟨x3', x4'⟩ := x2' fs' (fun a ha => p'.subset ha)
  have hgen : generatePredictionVector pg g' = generatePredictionVector pg g := by
    unfold generatePredictionVector
    rw [hc, S.table.rows, S.table'.rows]
  have o1 := S.table.order _ ho
  have hr1 : g.resolve srt g.nonClassFloats = Res.ok (fs.map sp) := by
    unfold Grid.resolve
    rw [x1, Res.map_ok, h]
  have hr2 : g'.resolve srt g'.nonClassFloats = Res.ok (fs'.map sp') := by
    unfold Grid.resolve
    rw [x1', Res.map_ok, h']
  have hmap : ∀ (s : Spec) (ret : Dense), g'.mapOverRows (fs'.map sp') order (svcCallback val enc m s) ret =
      g.mapOverRows (fs.map sp) order (svcCallback val enc m s) ret := by
    intro s ret
    unfold Grid.mapOverRows
    rw [x3, x3', Res.bind_ok, Res.bind_ok]
    refine mapOver_same (fun _ => True) _ ?_ _ trivial
    intro r hr
    have hr' := List.mem_range.1 (o1.subset hr)
    refine ⟨_, _, (x4' r hr').1, (x4 r hr').1, fun d _ => ⟨?_, fun _ _ => trivial⟩⟩
    unfold svcCallback
    rw [(x4' r hr').2 val, (x4 r hr').2 val, e r hr']
  unfold Golearn.svcPredict
  simp only [hc, hgen, hr1, hr2, Res.bind_ok, hmap]

theorem SameLabels.labelVec {Y : Type} [Zero Y] {conv : U64 → Y} {srt : List Spec → List Spec} (hsrt : PositionSort srt)
    {g g' : Grid} {n : Nat} {cls cls' : Attr} (L : SameLabels conv g g' n cls cls') (P : g.Presents n) (P' : g'.Presents n)
    (T : g.typed n) (T' : g'.typed n) {order order' : List Nat} (ho : g.RowOrder order) (ho' : g'.RowOrder order') :
    labelVec conv srt order' g' = labelVec conv srt order g := by
  rw [labelVec_spec hsrt P T ho L.one L.known L.float, labelVec_spec hsrt P' T' ho' L.one' L.known' L.float']
  congr 1
  exact List.map_congr_left fun r hr => L.rows r (List.mem_range.1 hr)

end

end Golearn
