import Verif.Spec.Race
import Mathlib.Data.List.Basic

namespace Golearn

/-! ## Every schedule -/

/-- A slice that begins with the values `vs`. -/
structure GoodHdr (vs : List String) (mem : List (List String)) (h : Hdr) : Prop where
  arr : h.arr < mem.length
  len : vs.length ≤ h.len
  cap : h.len ≤ (mem.getD h.arr []).length
  vals : vs <+: mem.getD h.arr []

theorem GoodHdr.slice {vs : List String} {mem : List (List String)} {h : Hdr} (g : GoodHdr vs mem h) : vs <+: sliceVals mem h := by
  unfold sliceVals
  have := List.prefix_take_iff.2 ⟨g.vals, g.len⟩
  exact this

/-- What holds of a goroutine. `K` are the texts it may write. -/
structure GoodCaller (vs : List String) (K : String → Prop) (mem : List (List String)) (c : Caller) : Prop where
  todo : ∀ s ∈ c.todo, K s
  pc : match c.pc with
    | .idle => True
    | .search s h i => K s ∧ GoodHdr vs mem h ∧ s ∉ vs.take i
    | .missing s => K s ∧ s ∉ vs
    | .append s h => K s ∧ s ∉ vs ∧ GoodHdr vs mem h
    | .store s h => K s ∧ s ∉ vs ∧ GoodHdr vs mem h
    | .count s => K s ∧ s ∉ vs
  done : ∀ x ∈ c.done, K x.1 ∧ (x.1 ∈ vs → x.2 = vs.idxOf x.1)

theorem GoodCaller.mono {vs : List String} {K : String → Prop} {mem mem' : List (List String)} {c : Caller} (h : GoodCaller vs K mem c)
    (hm : ∀ g, GoodHdr vs mem g → GoodHdr vs mem' g) : GoodCaller vs K mem' c := by
  refine ⟨h.todo, ?_, h.done⟩
  have := h.pc
  cases hp : c.pc <;> simp only [hp] at this ⊢
  · exact ⟨this.1, hm _ this.2.1, this.2.2⟩
  · exact this
  · exact ⟨this.1, this.2.1, hm _ this.2.2⟩
  · exact ⟨this.1, this.2.1, hm _ this.2.2⟩
  · exact this

theorem goodHdr_set {vs : List String} {mem : List (List String)} {h : Hdr} (g : GoodHdr vs mem h) (s : String)
    (g' : Hdr) (hg' : GoodHdr vs mem g') : GoodHdr vs (mem.set h.arr ((mem.getD h.arr []).set h.len s)) g' := by
  by_cases e : g'.arr = h.arr
  · have h1 : (mem.set h.arr ((mem.getD h.arr []).set h.len s)).getD g'.arr [] = (mem.getD h.arr []).set h.len s := by
      rw [e, List.getD_eq_getElem?_getD, List.getElem?_set_self g.arr]; rfl
    refine ⟨by rw [List.length_set]; exact hg'.arr, hg'.len, ?_, ?_⟩
    · rw [h1, List.length_set, ← e]; exact hg'.cap
    · rw [h1]
      obtain ⟨t, ht⟩ := g.vals
      rw [← ht, List.set_append_right _ _ g.len]
      exact List.prefix_append _ _
  · have h1 : (mem.set h.arr ((mem.getD h.arr []).set h.len s)).getD g'.arr [] = mem.getD g'.arr [] := by
      rw [List.getD_eq_getElem?_getD, List.getElem?_set_ne (fun x => e x.symm), List.getD_eq_getElem?_getD]
    exact ⟨by rw [List.length_set]; exact hg'.arr, hg'.len, by rw [h1]; exact hg'.cap, by rw [h1]; exact hg'.vals⟩

theorem goodHdr_new {vs : List String} {mem : List (List String)} (a : List String)
    (g' : Hdr) (hg' : GoodHdr vs mem g') : GoodHdr vs (mem ++ [a]) g' := by
  have h1 : (mem ++ [a]).getD g'.arr [] = mem.getD g'.arr [] := by
    rw [List.getD_eq_getElem?_getD, List.getElem?_append_left hg'.arr, List.getD_eq_getElem?_getD]
  exact ⟨by rw [List.length_append]; exact Nat.lt_add_right _ hg'.arr, hg'.len, by rw [h1]; exact hg'.cap, by rw [h1]; exact hg'.vals⟩

theorem getD_new {mem : List (List String)} (a : List String) : (mem ++ [a]).getD mem.length [] = a := by
  rw [List.getD_eq_getElem?_getD, List.getElem?_append_right (Nat.le_refl _)]
  simp

/-- One step. -/
theorem callerStep_good {vs : List String} {K : String → Prop} (grow : Nat → Nat) {mem : List (List String)} {hdr : Hdr} {c : Caller}
    (hh : GoodHdr vs mem hdr) (hc : GoodCaller vs K mem c) :
    (∀ g, GoodHdr vs mem g → GoodHdr vs (callerStep grow mem hdr c).1 g) ∧
    GoodHdr vs (callerStep grow mem hdr c).1 (callerStep grow mem hdr c).2.1 ∧
    GoodCaller vs K (callerStep grow mem hdr c).1 (callerStep grow mem hdr c).2.2 := by
  obtain ⟨todo, pc, done⟩ := c
  obtain ⟨h1, h2, h3⟩ := hc
  cases pc with
  | idle =>
    cases todo with
    | nil => exact ⟨fun _ h => h, hh, h1, trivial, h3⟩
    | cons s rest =>
      exact ⟨fun _ h => h, hh, fun x hx => h1 x (List.mem_cons_of_mem _ hx), ⟨h1 s (by simp), hh, by simp⟩, h3⟩
  | search s h i =>
    obtain ⟨k, g, hn⟩ := h2
    simp only [callerStep]
    split
    · split
      · next hi he =>
        refine ⟨fun _ h => h, hh, h1, trivial, ?_⟩
        intro x hx
        rcases List.mem_append.1 hx with hx | hx
        · exact h3 x hx
        · rw [List.mem_singleton.1 hx]
          refine ⟨k, fun hv => ?_⟩
          obtain ⟨t, ht⟩ := g.slice
          have hlt : vs.idxOf s < vs.length := List.idxOf_lt_length_of_mem hv
          have hle : i ≤ vs.idxOf s := by
            by_contra hc
            apply hn
            rw [List.mem_take_iff_getElem]
            exact ⟨vs.idxOf s, by omega, List.getElem_idxOf hlt⟩
          have hge : vs.idxOf s ≤ i := by
            have hi' : i < vs.length := by omega
            rw [← ht, List.getElem?_append_left hi', List.getElem?_eq_getElem hi'] at he
            have he := Option.some.inj he
            by_contra hc
            have := List.not_of_lt_findIdx (xs := vs) (p := (· == s)) (i := i) (by
              have : vs.idxOf s = vs.findIdx (· == s) := rfl
              omega)
            simp [he] at this
          exact Nat.le_antisymm hle hge
      · next hi he =>
        refine ⟨fun _ h => h, hh, h1, ⟨k, g, ?_⟩, h3⟩
        intro hm
        by_cases hi' : i < vs.length
        · rw [List.take_succ_eq_append_getElem hi'] at hm
          rcases List.mem_append.1 hm with hm | hm
          · exact hn hm
          · apply he
            obtain ⟨t, ht⟩ := g.slice
            rw [← ht, List.getElem?_append_left hi', List.getElem?_eq_getElem hi', List.mem_singleton.1 hm]
        · rw [List.take_of_length_le (by omega)] at hm
          rw [List.take_of_length_le (by omega)] at hn
          exact hn hm
    · next hi =>
      refine ⟨fun _ h => h, hh, h1, ⟨k, ?_⟩, h3⟩
      rw [List.take_of_length_le (Nat.le_trans g.len (Nat.le_of_not_lt hi))] at hn
      exact hn
  | missing s => exact ⟨fun _ h => h, hh, h1, ⟨h2.1, h2.2, hh⟩, h3⟩
  | append s h =>
    obtain ⟨k, hn, g⟩ := h2
    simp only [callerStep]
    split
    · next hl =>
      refine ⟨fun g' hg' => goodHdr_set g s g' hg', goodHdr_set g s hdr hh, h1, ⟨k, hn, ?_⟩, h3⟩
      have := goodHdr_set g s h g
      refine ⟨this.arr, Nat.le_succ_of_le this.len, ?_, this.vals⟩
      show h.len + 1 ≤ ((mem.set h.arr ((mem.getD h.arr []).set h.len s)).getD h.arr []).length
      rw [List.getD_eq_getElem?_getD, List.getElem?_set_self g.arr]
      show h.len + 1 ≤ ((mem.getD h.arr []).set h.len s).length
      rw [List.length_set]
      exact hl
    · refine ⟨fun g' hg' => goodHdr_new _ g' hg', goodHdr_new _ hdr hh, h1, ⟨k, hn, ?_⟩, h3⟩
      refine ⟨by simp, Nat.le_succ_of_le g.len, ?_, ?_⟩
      · show h.len + 1 ≤ ((mem ++ [_]).getD mem.length []).length
        rw [getD_new]
        have := g.cap
        rw [List.length_append, List.length_cons, List.length_take, Nat.min_eq_left this]
        omega
      · show vs <+: (mem ++ [_]).getD mem.length []
        rw [getD_new]
        exact (List.prefix_take_iff.2 ⟨g.vals, g.len⟩).trans (List.prefix_append _ _)
  | store s h => exact ⟨fun _ h => h, h2.2.2, h1, ⟨h2.1, h2.2.1⟩, h3⟩
  | count s =>
    refine ⟨fun _ h => h, hh, h1, trivial, ?_⟩
    intro x hx
    rcases List.mem_append.1 hx with hx | hx
    · exact h3 x hx
    · rw [List.mem_singleton.1 hx]
      exact ⟨h2.1, fun hv => (h2.2 hv).elim⟩

/-- What holds in every state. -/
structure GoodSt (vs : List String) (K : String → Prop) (st : RaceSt) : Prop where
  hdr : GoodHdr vs st.mem st.hdr
  callers : ∀ c ∈ st.callers, GoodCaller vs K st.mem c

theorem step_good {vs : List String} {K : String → Prop} (grow : Nat → Nat) {st : RaceSt} (h : GoodSt vs K st) (i : Nat) :
    GoodSt vs K (st.step grow i) := by
  unfold RaceSt.step
  cases hc : st.callers[i]? with
  | none => exact h
  | some c =>
    obtain ⟨h1, h2, h3⟩ := callerStep_good grow h.hdr (h.callers c (List.mem_of_getElem? hc))
    refine ⟨h2, fun c' hc' => ?_⟩
    rcases List.mem_or_eq_of_mem_set hc' with hc' | rfl
    · exact (h.callers c' hc').mono h1
    · exact h3

theorem runs_good {vs : List String} {K : String → Prop} (grow : Nat → Nat) (sched : List Nat) :
    ∀ {st : RaceSt}, GoodSt vs K st → GoodSt vs K (st.runs grow sched) := by
  induction sched with
  | nil => intro st h; exact h
  | cons i is ih => intro st h; exact ih (step_good grow h i)

theorem start_good (vs spare : List String) (progs : List (List String)) {K : String → Prop} (hK : ∀ p ∈ progs, ∀ s ∈ p, K s) :
    GoodSt vs K (RaceSt.start vs spare progs) := by
  refine ⟨⟨by simp [RaceSt.start], Nat.le_refl _, by simp [RaceSt.start], by simp [RaceSt.start]⟩, ?_⟩
  intro c hc
  obtain ⟨p, hp, rfl⟩ := List.mem_map.1 hc
  exact ⟨hK p hp, trivial, by simp⟩

/-- If only values are written, memory does not change. -/
theorem step_known {vs : List String} (grow : Nat → Nat) {st : RaceSt} (h : GoodSt vs (· ∈ vs) st) (i : Nat) :
    (st.step grow i).mem = st.mem ∧ (st.step grow i).hdr = st.hdr := by
  unfold RaceSt.step
  cases hc : st.callers[i]? with
  | none => exact ⟨rfl, rfl⟩
  | some c =>
    have hp := (h.callers c (List.mem_of_getElem? hc)).pc
    obtain ⟨todo, pc, done⟩ := c
    cases pc with
    | idle => cases todo <;> exact ⟨rfl, rfl⟩
    | search s g j =>
      simp only [callerStep]
      split
      · split <;> exact ⟨rfl, rfl⟩
      · exact ⟨rfl, rfl⟩
    | missing s => exact ⟨rfl, rfl⟩
    | append s g => exact (hp.2.1 hp.1).elim
    | store s g => exact (hp.2.1 hp.1).elim
    | count s => exact ⟨rfl, rfl⟩

theorem runs_known {vs : List String} (grow : Nat → Nat) (sched : List Nat) :
    ∀ {st : RaceSt}, GoodSt vs (· ∈ vs) st → (st.runs grow sched).mem = st.mem ∧ (st.runs grow sched).hdr = st.hdr := by
  induction sched with
  | nil => intro st h; exact ⟨rfl, rfl⟩
  | cons i is ih =>
    intro st h
    obtain ⟨h1, h2⟩ := ih (step_good grow h i)
    obtain ⟨k1, k2⟩ := step_known grow h i
    exact ⟨h1.trans k1, h2.trans k2⟩

/-! ## One call at a time -/

/-- A slice within its array. -/
def HdrOK (mem : List (List String)) (h : Hdr) : Prop := h.arr < mem.length ∧ h.len ≤ (mem.getD h.arr []).length

theorem HdrOK.length {mem : List (List String)} {h : Hdr} (k : HdrOK mem h) : (sliceVals mem h).length = h.len := by
  rw [sliceVals, List.length_take, Nat.min_eq_left k.2]

/-- Where a call is that no other one interferes with. -/
def PcOK (mem : List (List String)) (hdr : Hdr) : CallPc → Prop
  | .idle => True
  | .search s h i => h = hdr ∧ s ∉ (sliceVals mem hdr).take i
  | .missing s => s ∉ sliceVals mem hdr
  | .append s h => h = hdr ∧ s ∉ sliceVals mem hdr
  | .store s h => s ∉ sliceVals mem hdr ∧ HdrOK mem h ∧ sliceVals mem h = sliceVals mem hdr ++ [s]
  | .count s => (sliceVals mem hdr)[hdr.len - 1]? = some s

/-- One step. -/
theorem callerStep_alone (grow : Nat → Nat) {mem : List (List String)} {hdr : Hdr} {c : Caller} (hh : HdrOK mem hdr)
    (hp : PcOK mem hdr c.pc) :
    let r := callerStep grow mem hdr c
    HdrOK r.1 r.2.1 ∧ PcOK r.1 r.2.1 r.2.2.pc ∧ sliceVals mem hdr <+: sliceVals r.1 r.2.1 ∧
    ((sliceVals mem hdr).Nodup → (sliceVals r.1 r.2.1).Nodup) ∧
    (∀ v ∈ sliceVals r.1 r.2.1, v ∈ sliceVals mem hdr ∨ r.2.2.pc = .count v) ∧
    (∀ x ∈ c.done, x ∈ r.2.2.done) ∧ (∀ v, c.pc = .count v → ∃ k, (v, k) ∈ r.2.2.done) ∧
    (∀ x ∈ r.2.2.done, x ∈ c.done ∨ (sliceVals r.1 r.2.1)[x.2]? = some x.1) := by
  obtain ⟨todo, pc, done⟩ := c
  cases pc with
  | idle =>
    cases todo with
    | nil => exact ⟨hh, hp, List.prefix_refl _, id, fun v hv => .inl hv, fun x hx => hx, by simp, fun x hx => .inl hx⟩
    | cons s rest =>
      exact ⟨hh, ⟨rfl, by simp⟩, List.prefix_refl _, id, fun v hv => .inl hv, fun x hx => hx, by simp, fun x hx => .inl hx⟩
  | search s h i =>
    obtain ⟨rfl, hn⟩ := hp
    simp only [callerStep]
    split
    · next hi =>
      split
      · next he =>
        refine ⟨hh, trivial, List.prefix_refl _, id, fun v hv => .inl hv, fun x hx => List.mem_append_left _ hx, by simp, ?_⟩
        intro x hx
        rcases List.mem_append.1 hx with hx | hx
        · exact .inl hx
        · rw [List.mem_singleton.1 hx]; exact .inr he
      · next he =>
        refine ⟨hh, ⟨rfl, ?_⟩, List.prefix_refl _, id, fun v hv => .inl hv, fun x hx => hx, by simp, fun x hx => .inl hx⟩
        intro hm
        have hl : i < (sliceVals mem h).length := by rw [hh.length]; exact hi
        rw [List.take_succ_eq_append_getElem hl] at hm
        rcases List.mem_append.1 hm with hm | hm
        · exact hn hm
        · exact he (by rw [List.getElem?_eq_getElem hl, List.mem_singleton.1 hm])
    · next hi =>
      refine ⟨hh, ?_, List.prefix_refl _, id, fun v hv => .inl hv, fun x hx => hx, by simp, fun x hx => .inl hx⟩
      rw [List.take_of_length_le (by rw [hh.length]; omega)] at hn
      exact hn
  | missing s => exact ⟨hh, ⟨rfl, hp⟩, List.prefix_refl _, id, fun v hv => .inl hv, fun x hx => hx, by simp, fun x hx => .inl hx⟩
  | append s h =>
    obtain ⟨rfl, hn⟩ := hp
    simp only [callerStep]
    split
    · next hl =>
      have hg : (mem.set h.arr ((mem.getD h.arr []).set h.len s)).getD h.arr [] = (mem.getD h.arr []).set h.len s := by
        rw [List.getD_eq_getElem?_getD, List.getElem?_set_self hh.1]; rfl
      have hs : sliceVals (mem.set h.arr ((mem.getD h.arr []).set h.len s)) h = sliceVals mem h := by
        rw [sliceVals, hg, sliceVals, List.take_set_of_le (Nat.le_refl _)]
      refine ⟨⟨by rw [List.length_set]; exact hh.1, by rw [hg, List.length_set]; exact hh.2⟩, ⟨by rw [hs]; exact hn, ⟨by rw [List.length_set]; exact hh.1, ?_⟩, ?_⟩,
        by rw [hs]; exact List.prefix_refl _, by rw [hs]; exact id, by rw [hs]; exact fun v hv => .inl hv, fun x hx => hx, by simp, fun x hx => .inl hx⟩
      · show h.len + 1 ≤ ((mem.set h.arr _).getD h.arr []).length
        rw [hg, List.length_set]; exact hl
      · rw [hs]
        show ((mem.set h.arr _).getD h.arr []).take (h.len + 1) = _
        have hl' : h.len < ((mem.getD h.arr []).set h.len s).length := by rw [List.length_set]; exact hl
        rw [hg, List.take_succ_eq_append_getElem hl', List.take_set_of_le (Nat.le_refl _), List.getElem_set_self]
        rfl
    · next hl =>
      have hlen : (mem.getD h.arr []).length = h.len := Nat.le_antisymm (Nat.le_of_not_lt hl) hh.2
      have hs : ∀ a, sliceVals (mem ++ [a]) h = sliceVals mem h := by
        intro a
        rw [sliceVals, List.getD_eq_getElem?_getD, List.getElem?_append_left hh.1, ← List.getD_eq_getElem?_getD, sliceVals]
      refine ⟨⟨by rw [List.length_append]; exact Nat.lt_add_right _ hh.1, ?_⟩, ⟨by rw [hs]; exact hn, ⟨by simp, ?_⟩, ?_⟩,
        by rw [hs]; exact List.prefix_refl _, by rw [hs]; exact id, by rw [hs]; exact fun v hv => .inl hv, fun x hx => hx, by simp, fun x hx => .inl hx⟩
      · show h.len ≤ ((mem ++ [_]).getD h.arr []).length
        rw [List.getD_eq_getElem?_getD, List.getElem?_append_left hh.1, ← List.getD_eq_getElem?_getD]; exact hh.2
      · show h.len + 1 ≤ ((mem ++ [_]).getD mem.length []).length
        rw [getD_new, List.length_append, List.length_cons, List.length_take, hlen, Nat.min_self]
        omega
      · rw [hs]
        show ((mem ++ [_]).getD mem.length []).take (h.len + 1) = _
        rw [getD_new, List.take_append, List.take_of_length_le (by rw [List.length_take]; omega), List.length_take, hlen, Nat.min_self,
          Nat.add_sub_cancel_left]
        rfl
  | store s h =>
    obtain ⟨hn, hok, hs⟩ := hp
    simp only [callerStep]
    refine ⟨hok, ?_, by rw [hs]; exact List.prefix_append _ _, ?_, ?_, fun x hx => hx, by simp, fun x hx => .inl hx⟩
    · show (sliceVals mem h)[h.len - 1]? = some s
      rw [← hok.length, hs]; simp
    · intro hd
      rw [hs]
      exact List.nodup_append.2 ⟨hd, by simp, fun a ha b hb => by rw [List.mem_singleton.1 hb]; rintro rfl; exact hn ha⟩
    · intro v hv
      rw [hs] at hv
      rcases List.mem_append.1 hv with hv | hv
      · exact .inl hv
      · rw [List.mem_singleton.1 hv]; exact .inr rfl
  | count s =>
    simp only [callerStep]
    refine ⟨hh, trivial, List.prefix_refl _, id, fun v hv => .inl hv, fun x hx => List.mem_append_left _ hx, ?_, ?_⟩
    · intro v hv
      cases hv
      exact ⟨_, List.mem_append_right _ (List.mem_singleton.2 rfl)⟩
    · intro x hx
      rcases List.mem_append.1 hx with hx | hx
      · exact .inl hx
      · rw [List.mem_singleton.1 hx]; exact .inr hp

/-- What holds as long as no two calls overlap. -/
structure AloneSt (vs : List String) (st : RaceSt) : Prop where
  hdr : HdrOK st.mem st.hdr
  pc : ∀ c ∈ st.callers, PcOK st.mem st.hdr c.pc
  pre : vs <+: st.values
  nodup : vs.Nodup → st.values.Nodup
  done : ∀ c ∈ st.callers, ∀ x ∈ c.done, st.decodes x
  src : ∀ v ∈ st.values, v ∈ vs ∨ ∃ c ∈ st.callers, c.pc = .count v ∨ ∃ k, (v, k) ∈ c.done

theorem step_alone {vs : List String} (grow : Nat → Nat) {st : RaceSt} (h : AloneSt vs st) (i : Nat)
    (ho : ∀ j, j ≠ i → ∀ c, st.callers[j]? = some c → c.pc = .idle) : AloneSt vs (st.step grow i) := by
  unfold RaceSt.step
  cases hc : st.callers[i]? with
  | none => exact h
  | some c =>
    have hm := List.mem_of_getElem? hc
    obtain ⟨k1, k2, k3, k4, k5, k6, k7, k8⟩ := callerStep_alone grow h.hdr (h.pc c hm)
    have hi : i < st.callers.length := (List.getElem?_eq_some_iff.1 hc).1
    have hset : ∀ c', c' ∈ st.callers.set i (callerStep grow st.mem st.hdr c).2.2 →
        c' = (callerStep grow st.mem st.hdr c).2.2 ∨ (c' ∈ st.callers ∧ c'.pc = .idle) := by
      intro c' hc'
      obtain ⟨j, hj⟩ := List.mem_iff_getElem?.1 hc'
      by_cases e : j = i
      · subst e
        rw [List.getElem?_set_self hi] at hj
        exact .inl (Option.some.inj hj).symm
      · rw [List.getElem?_set_ne (fun x => e x.symm)] at hj
        exact .inr ⟨List.mem_of_getElem? hj, ho j e c' hj⟩
    have hself : (callerStep grow st.mem st.hdr c).2.2 ∈ st.callers.set i (callerStep grow st.mem st.hdr c).2.2 :=
      List.mem_iff_getElem?.2 ⟨i, List.getElem?_set_self hi⟩
    have hdec : ∀ x : String × Nat, st.decodes x →
        (sliceVals (callerStep grow st.mem st.hdr c).1 (callerStep grow st.mem st.hdr c).2.1)[x.2]? = some x.1 := by
      intro x hx
      obtain ⟨t, ht⟩ := k3
      rw [← ht]
      have hx : (sliceVals st.mem st.hdr)[x.2]? = some x.1 := hx
      rw [List.getElem?_append_left (List.getElem?_eq_some_iff.1 hx).1]
      exact hx
    refine ⟨k1, ?_, h.pre.trans k3, fun hv => k4 (h.nodup hv), ?_, ?_⟩
    · intro c' hc'
      rcases hset c' hc' with rfl | ⟨_, e⟩
      · exact k2
      · rw [e]; trivial
    · intro c' hc' x hx
      rcases hset c' hc' with rfl | ⟨hc', _⟩
      · rcases k8 x hx with hx | hx
        · exact hdec x (h.done c hm x hx)
        · exact hx
      · exact hdec x (h.done c' hc' x hx)
    · intro v hv
      rcases k5 v hv with hv | hv
      · rcases h.src v hv with hv | ⟨c', hc', hv⟩
        · exact .inl hv
        · right
          obtain ⟨j, hj⟩ := List.mem_iff_getElem?.1 hc'
          by_cases e : j = i
          · subst e
            rw [hc] at hj
            cases hj
            refine ⟨_, hself, .inr ?_⟩
            rcases hv with hv | ⟨k, hv⟩
            · exact k7 v hv
            · exact ⟨k, k6 _ hv⟩
          · exact ⟨c', List.mem_iff_getElem?.2 ⟨j, by rw [List.getElem?_set_ne (fun x => e x.symm)]; exact hj⟩, hv⟩
      · exact .inr ⟨_, hself, .inl hv⟩

theorem runs_alone {vs : List String} (grow : Nat → Nat) (sched : List Nat) :
    ∀ {st : RaceSt}, AloneSt vs st → OneAtATime grow st sched → AloneSt vs (st.runs grow sched) := by
  induction sched with
  | nil => intro st h _; exact h
  | cons i is ih => intro st h ho; exact ih (step_alone grow h i ho.1) ho.2

theorem start_alone (vs spare : List String) (progs : List (List String)) : AloneSt vs (RaceSt.start vs spare progs) := by
  have hv : (RaceSt.start vs spare progs).values = vs := by simp [RaceSt.values, sliceVals, RaceSt.start]
  have hc : ∀ c ∈ (RaceSt.start vs spare progs).callers, c.pc = .idle ∧ c.done = [] := by
    intro c hc
    obtain ⟨p, hp, rfl⟩ := List.mem_map.1 hc
    exact ⟨rfl, rfl⟩
  refine ⟨⟨by simp [RaceSt.start], by simp [RaceSt.start]⟩, fun c h => by rw [(hc c h).1]; trivial, by rw [hv]; exact List.prefix_refl _, by rw [hv]; exact id,
    fun c h x hx => by rw [(hc c h).2] at hx; simp at hx, fun v h => by rw [hv] at h; exact .inl h⟩

end Golearn
