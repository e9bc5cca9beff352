import Verif.Model.Disk
import Verif.Spec.Crash

/-! # Saving to a disk that can fail -/

namespace Golearn

/-- The disk has a first part of the entries, in a state in which `es` have been written. -/
structure Sink.Holds (s : Sink) (es : Archive) : Prop where
  cut : CutShort s.onDisk es
  whole : s.broken = false → s.onDisk ++ s.pending = es

theorem holds_open : Sink.open.Holds [] := ⟨⟨[], rfl⟩, fun _ => rfl⟩

theorem cut_trans {a b c : Archive} (h : CutShort a b) (h' : CutShort b c) : CutShort a c := by
  obtain ⟨x, rfl⟩ := h
  obtain ⟨y, rfl⟩ := h'
  exact ⟨x ++ y, by simp⟩

theorem holds_flush (D : DiskEnv) {s : Sink} {es : Archive} (h : s.Holds es) :
    (s.flush D).1.Holds es ∧ ((s.flush D).2 = true → (s.flush D).1.onDisk = es ∧ (s.flush D).1.broken = false) ∧
      ((s.flush D).2 = false → (s.flush D).1.broken = true) := by
  unfold Sink.flush
  by_cases hb : s.broken = true
  · rw [if_pos hb]
    exact ⟨h, by simp, fun _ => hb⟩
  · rw [if_neg hb]
    have hw := h.whole (by simpa using hb)
    cases D.fails s.calls with
    | none => exact ⟨⟨⟨[], by simp [hw]⟩, fun _ => by simp [hw]⟩, fun _ => ⟨hw, rfl⟩, by simp⟩
    | some k =>
      refine ⟨⟨⟨s.pending.drop k, ?_⟩, by simp⟩, by simp, fun _ => rfl⟩
      rw [← hw]
      simp only [List.append_assoc, List.take_append_drop]

theorem holds_put (D : DiskEnv) {s : Sink} {es : Archive} (h : s.Holds es) (e : Entry) :
    (s.put D e).1.Holds (es ++ [e]) ∧ ((s.put D e).2 = true → (s.put D e).1.broken = false) ∧
      ((s.put D e).2 = false → (s.put D e).1.broken = true) := by
  unfold Sink.put
  by_cases hb : s.broken = true
  · rw [if_pos hb]
    exact ⟨⟨cut_trans h.cut ⟨[e], rfl⟩, fun h' => absurd (hb.symm.trans h') (by simp)⟩, by simp, fun _ => hb⟩
  · have hw := h.whole (by simpa using hb)
    have h' : ({ s with pending := s.pending ++ [e] } : Sink).Holds (es ++ [e]) :=
      ⟨cut_trans h.cut ⟨[e], rfl⟩, fun _ => by simp [← hw]⟩
    rw [if_neg hb]
    dsimp only
    split
    · obtain ⟨h1, h2, h3⟩ := holds_flush D h'
      exact ⟨h1, fun x => (h2 x).2, h3⟩
    · exact ⟨h', fun _ => by simpa using hb, by simp⟩

theorem holds_write (D : DiskEnv) {s : Sink} {es : Archive} (h : s.Holds es) (e : Entry) :
    (s.writeForKey D e).1.Holds (es ++ [e]) ∧ ((s.writeForKey D e).2 = false → (s.writeForKey D e).1.broken = true) := by
  unfold Sink.writeForKey
  obtain ⟨h1, h2, h3⟩ := holds_put D h e
  dsimp only
  split
  · exact ⟨(holds_flush D h1).1, by simp⟩
  · exact ⟨h1, h3⟩

theorem holds_putAll (D : DiskEnv) (rest : List (Entry × Bool)) : ∀ {s : Sink} {es : Archive}, s.Holds es →
    CutShort (Sink.putAll D s rest).1.onDisk (es ++ rest.map Prod.fst) ∧
      ((Sink.putAll D s rest).2 = true → (Sink.putAll D s rest).1.Holds (es ++ rest.map Prod.fst)) ∧
      ((Sink.putAll D s rest).2 = false → (Sink.putAll D s rest).1.broken = true) := by
  induction rest with
  | nil => intro s es h; simpa [Sink.putAll] using ⟨h.cut, h⟩
  | cons x rest ih =>
    intro s es h
    obtain ⟨e, fl⟩ := x
    have key : ∀ r : Sink × Bool, r.1.Holds (es ++ [e]) → (r.2 = false → r.1.broken = true) →
        CutShort (if r.2 then Sink.putAll D r.1 rest else r).1.onDisk (es ++ (e :: rest.map Prod.fst)) ∧
          ((if r.2 then Sink.putAll D r.1 rest else r).2 = true →
            (if r.2 then Sink.putAll D r.1 rest else r).1.Holds (es ++ (e :: rest.map Prod.fst))) ∧
          ((if r.2 then Sink.putAll D r.1 rest else r).2 = false → (if r.2 then Sink.putAll D r.1 rest else r).1.broken = true) := by
      intro r hr hb
      by_cases h2 : r.2 = true
      · rw [if_pos h2]
        have := ih hr
        simpa [List.append_assoc] using this
      · rw [if_neg h2]
        exact ⟨cut_trans hr.cut ⟨rest.map Prod.fst, by simp⟩, fun x => absurd x h2, hb⟩
    simp only [Sink.putAll, List.map_cons]
    cases fl with
    | true => exact key _ (holds_write D h e).1 (holds_write D h e).2
    | false => exact key _ (holds_put D h e).1 (holds_put D h e).2.2

theorem holds_close (D : DiskEnv) {s : Sink} {es : Archive} (h : s.Holds es) :
    CutShort (s.close D).1.onDisk es ∧ ((s.close D).2 = true → (s.close D).1.onDisk = es) := by
  unfold Sink.close
  obtain ⟨h1, h2, _⟩ := holds_flush D h
  dsimp only
  split
  · rename_i hf
    exact ⟨h1.cut, fun _ => (h2 hf).1⟩
  · rename_i hf
    exact ⟨h1.cut, fun x => absurd x hf⟩

/-- A disk that fails when data is handed to it for the `n`-th time, and whose buffers never fill up. -/
def failsAt (n : Nat) : DiskEnv := ⟨fun i => if i = n then some 0 else none, fun _ => false, true⟩

/-- Before the failure, everything works. -/
theorem putAll_before (D : DiskEnv) (k : Nat) (hf : ∀ i < k, D.fails i = none) (hs : ∀ i ≤ k, D.spills i = false)
    (rest : List (Entry × Bool)) : ∀ s : Sink, s.broken = false → s.calls + (rest.filter Prod.snd).length ≤ k →
    (Sink.putAll D s rest).2 = true ∧ (Sink.putAll D s rest).1.broken = false ∧
      (Sink.putAll D s rest).1.calls = s.calls + (rest.filter Prod.snd).length := by
  induction rest with
  | nil => intro s hb _; simp [Sink.putAll, hb]
  | cons x rest ih =>
    intro s hb hn
    obtain ⟨e, fl⟩ := x
    cases fl with
    | true =>
      simp only [List.filter_cons_of_pos, List.length_cons] at hn
      have h1 : s.writeForKey D e = (⟨s.onDisk ++ (s.pending ++ [e]), [], false, s.calls + 1⟩, true) := by
        simp [Sink.writeForKey, Sink.put, hb, Sink.flush, hf s.calls (by omega), hs s.calls (by omega)]
      simp only [Sink.putAll, if_true, h1]
      obtain ⟨a, b, c⟩ := ih ⟨s.onDisk ++ (s.pending ++ [e]), [], false, s.calls + 1⟩ rfl (by simp only; omega)
      refine ⟨a, b, ?_⟩
      rw [c]
      simp only [List.filter_cons_of_pos, List.length_cons]
      omega
    | false =>
      have h1 : s.put D e = ({ s with pending := s.pending ++ [e] }, true) := by
        simp [Sink.put, hb, hs s.calls (by omega)]
      simp only [Sink.putAll, Bool.false_eq_true, if_false, h1]
      rw [if_pos trivial]
      obtain ⟨a, b, c⟩ := ih { s with pending := s.pending ++ [e] } hb (by simpa using hn)
      exact ⟨a, b, by simpa using c⟩

theorem putAll_failsAt (n : Nat) (rest : List (Entry × Bool)) (s : Sink) (hb : s.broken = false)
    (hn : s.calls + (rest.filter Prod.snd).length ≤ n) :
    (Sink.putAll (failsAt n) s rest).2 = true ∧ (Sink.putAll (failsAt n) s rest).1.broken = false ∧
      (Sink.putAll (failsAt n) s rest).1.calls = s.calls + (rest.filter Prod.snd).length :=
  putAll_before _ n (fun i hi => by simp [failsAt, Nat.ne_of_lt hi]) (fun _ _ => rfl) rest s hb hn

/-- The failure comes when the last entry is written. -/
theorem write_failsAt (n : Nat) (s : Sink) (hb : s.broken = false) (hc : s.calls = n) (e : Entry) :
    s.writeForKey (failsAt n) e = (⟨s.onDisk, [], true, n + 1⟩, true) := by
  simp [Sink.writeForKey, Sink.put, hb, failsAt, Sink.flush, hc]

theorem putAll_append (D : DiskEnv) (a b : List (Entry × Bool)) : ∀ s : Sink, (Sink.putAll D s a).2 = true →
    Sink.putAll D s (a ++ b) = Sink.putAll D (Sink.putAll D s a).1 b := by
  induction a with
  | nil => intro s _; rfl
  | cons x a ih =>
    intro s h
    obtain ⟨e, fl⟩ := x
    simp only [Sink.putAll, List.cons_append] at h ⊢
    generalize (if fl = true then s.writeForKey D e else s.put D e) = r at h ⊢
    by_cases h1 : r.2 = true
    · rw [if_pos h1] at h ⊢
      rw [if_pos h1]
      exact ih _ h
    · rw [if_neg h1] at h
      exact absurd h h1

end Golearn
