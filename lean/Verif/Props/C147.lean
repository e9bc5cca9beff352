import Verif.Proofs.Race

/-! # C147: goroutines that predict at the same time share the class attribute -/

namespace Golearn

/-- In every schedule the values that the attribute had stay where they are, and the code of a text that is one of them is its place,
whatever else is added at the same time. So it stands for the text, at any time. -/
theorem C147_known_partial (grow : Nat → Nat) (vs spare : List String) (progs : List (List String)) (sched : List Nat) :
    let st := (RaceSt.start vs spare progs).runs grow sched
    vs <+: st.values ∧ ∀ x ∈ st.got, x.1 ∈ vs → x.2 = vs.idxOf x.1 ∧ st.decodes x := by
  have h := runs_good grow sched (start_good vs spare progs (K := fun _ => True) fun _ _ _ _ => trivial)
  refine ⟨h.hdr.slice, fun x hx hv => ?_⟩
  obtain ⟨c, hc, hx⟩ := List.mem_flatMap.1 hx
  have e := ((h.callers c hc).done x hx).2 hv
  refine ⟨e, ?_⟩
  obtain ⟨t, ht⟩ := h.hdr.slice
  have hl : vs.idxOf x.1 < vs.length := List.idxOf_lt_length_of_mem hv
  show (sliceVals _ _)[x.2]? = some x.1
  rw [← ht, e, List.getElem?_append_left hl, List.getElem?_eq_getElem hl, List.getElem_idxOf hl]

/-- If all texts are values already, the values do not change in any schedule, and every code stands for its text. -/
theorem C147_all_known (grow : Nat → Nat) (vs spare : List String) (progs : List (List String)) (hk : ∀ p ∈ progs, ∀ s ∈ p, s ∈ vs)
    (sched : List Nat) :
    let st := (RaceSt.start vs spare progs).runs grow sched
    st.values = vs ∧ ∀ x ∈ st.got, st.decodes x := by
  have hg := start_good vs spare progs (K := (· ∈ vs)) hk
  have h := runs_good grow sched hg
  obtain ⟨h1, h2⟩ := runs_known grow sched hg
  refine ⟨?_, fun x hx => ?_⟩
  · show sliceVals _ _ = vs
    rw [h1, h2]
    simp [sliceVals, RaceSt.start]
  · obtain ⟨c, hc, hx'⟩ := List.mem_flatMap.1 hx
    exact ((C147_known_partial grow vs spare progs sched).2 x hx ((h.callers c hc).done x hx').1).2

/-- If no two calls overlap, whichever goroutine makes them: the values begin with what they were, none comes twice, what is new is a text
of a call, and every code stands for its text. -/
theorem C147_one_at_a_time (grow : Nat → Nat) (vs spare : List String) (progs : List (List String)) (sched : List Nat)
    (ho : OneAtATime grow (RaceSt.start vs spare progs) sched) :
    let st := (RaceSt.start vs spare progs).runs grow sched
    vs <+: st.values ∧ (vs.Nodup → st.values.Nodup) ∧ (∀ x ∈ st.got, st.decodes x) ∧
    (st.quiet → ∀ v ∈ st.values, v ∈ vs ∨ v ∈ st.got.map Prod.fst) := by
  have h := runs_alone grow sched (start_alone vs spare progs) ho
  refine ⟨h.pre, h.nodup, fun x hx => ?_, fun hq v hv => ?_⟩
  · obtain ⟨c, hc, hx⟩ := List.mem_flatMap.1 hx
    exact h.done c hc x hx
  · rcases h.src v hv with hv | ⟨c, hc, hv⟩
    · exact .inl hv
    · rcases hv with hv | ⟨k, hv⟩
      · rw [hq c hc] at hv; cases hv
      · exact .inr (List.mem_map.2 ⟨(v, k), List.mem_flatMap.2 ⟨c, hc, hv⟩, rfl⟩)

/-! ## Overlapping calls -/

namespace C147

/-- The class has the value c; two members predict the new labels a and b. Both find nothing, both read the slice, then both append. -/
def two : RaceSt := (RaceSt.start ["c"] [] [["a"], ["b"]]).runs (fun n => n) [0, 1, 0, 1, 0, 1, 0, 1, 0, 0, 0, 1, 1, 1]

/-- Three members predict the same new label. The second one appends after the first; the third read the slice before. -/
def three : RaceSt := (RaceSt.start ["c"] [] [["a"], ["a"], ["a"]]).runs (fun n => n)
  [0, 1, 2, 0, 1, 2, 0, 1, 2, 0, 2, 0, 0, 0, 1, 1, 1, 1, 2, 2, 2]

/-- The first array has room: a call that is under way writes over a value that another one has just added. -/
def room : RaceSt := (RaceSt.start ["c"] ["", ""] [["a"], ["b"]]).runs (fun n => n) [0, 1, 0, 1, 0, 1, 0, 1, 0, 0, 0, 1]

end C147

open C147 in
/-- Without that it is false: the code of a stands for b. -/
theorem C147_lost : ¬ AnyScheduleDecodes := by
  intro H
  have h := H (fun n => n) ["c"] [] [["a"], ["b"]] [0, 1, 0, 1, 0, 1, 0, 1, 0, 0, 0, 1, 1, 1] (by unfold RaceSt.quiet; decide +kernel)
    ("a", 1) (by decide +kernel)
  revert h
  unfold RaceSt.decodes
  decide +kernel

open C147 in
/-- In the end there is no value a, though its call has returned 1, which now stands for b. -/
theorem C147_lost_value : two.got = [("a", 1), ("b", 1)] ∧ two.values = ["c", "b"] := by decide +kernel

open C147 in
/-- A single new label is enough: a code is beyond the values, so that reading it panics. -/
theorem C147_out_of_range : three.got = [("a", 1), ("a", 2), ("a", 1)] ∧ three.values = ["c", "a"] ∧
    catGetString three.values (packU64 2) = Res.panic := by
  decide +kernel

open C147 in
/-- A value changes under a call that has returned, before the other call has set the slice. -/
theorem C147_overwritten : room.got = [("a", 1)] ∧ room.values = ["c", "b"] := by decide +kernel

namespace C147

/-- Two goroutines in turn, with texts that are values. -/
def turns : RaceSt := (RaceSt.start ["a", "b"] [""] [["b", "a"], ["a", "b"]]).runs (fun n => n) ((List.range 20).map (· % 2))

/-- Calls one after the other, with new texts. -/
def calls : RaceSt := (RaceSt.start ["a"] [] [["b", "c"], ["c", "b"]]).runs (fun n => n)
  (List.replicate 7 0 ++ List.replicate 8 1 ++ List.replicate 4 0 ++ List.replicate 3 1)

end C147

open C147 in
/-- Schedules that overlap and schedules that do not, with known and new texts. -/
example : (turns.values = ["a", "b"] ∧ turns.got = [("b", 1), ("a", 0), ("a", 0), ("b", 1)] ∧ ∀ c ∈ turns.callers, c.pc = .idle) ∧
    (calls.values = ["a", "b", "c"] ∧ calls.got = [("b", 1), ("c", 2), ("c", 2), ("b", 1)] ∧ ∀ c ∈ calls.callers, c.pc = .idle) := by
  decide +kernel

example : OneAtATime (fun n => n) (RaceSt.start ["a"] [] [["b"], ["c"]]) (List.replicate 7 0 ++ List.replicate 8 1) := by
  have hset : ∀ (st : RaceSt) (i : Nat), (∀ j < st.callers.length, j ≠ i → ∀ c ∈ st.callers[j]?, c.pc = .idle) →
      ∀ j, j ≠ i → ∀ c, st.callers[j]? = some c → c.pc = .idle :=
    fun st i h j hj c hc => h j (List.getElem?_eq_some_iff.1 hc).1 hj c hc
  refine ⟨hset _ _ (by decide +kernel), hset _ _ (by decide +kernel), hset _ _ (by decide +kernel), hset _ _ (by decide +kernel),
    hset _ _ (by decide +kernel), hset _ _ (by decide +kernel), hset _ _ (by decide +kernel), hset _ _ (by decide +kernel),
    hset _ _ (by decide +kernel), hset _ _ (by decide +kernel), hset _ _ (by decide +kernel), hset _ _ (by decide +kernel),
    hset _ _ (by decide +kernel), hset _ _ (by decide +kernel), hset _ _ (by decide +kernel), trivial⟩

end Golearn
