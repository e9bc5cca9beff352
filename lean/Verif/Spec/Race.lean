import Verif.Model.Race

/-! # What is expected of goroutines that add texts to one attribute -/

namespace Golearn

/-- The code stands for the text. -/
def RaceSt.decodes (st : RaceSt) (x : String × Nat) : Prop := st.values[x.2]? = some x.1

/-- Every goroutine is between two calls. -/
def RaceSt.quiet (st : RaceSt) : Prop := ∀ c ∈ st.callers, c.pc = .idle

/-- The texts the goroutines have codes for. -/
def RaceSt.got (st : RaceSt) : List (String × Nat) := st.callers.flatMap Caller.done

/-- No call begins or goes on while another one is under way. -/
def OneAtATime (grow : Nat → Nat) : RaceSt → List Nat → Prop
  | _, [] => True
  | st, i :: is => (∀ j, j ≠ i → ∀ c, st.callers[j]? = some c → c.pc = .idle) ∧ OneAtATime grow (st.step grow i) is

/-- The full claim: whatever the schedule, once no call is under way every code stands for its text. -/
def AnyScheduleDecodes : Prop :=
  ∀ (grow : Nat → Nat) (vs spare : List String) (progs : List (List String)) (sched : List Nat),
    ((RaceSt.start vs spare progs).runs grow sched).quiet →
    ∀ x ∈ ((RaceSt.start vs spare progs).runs grow sched).got, ((RaceSt.start vs spare progs).runs grow sched).decodes x

end Golearn
