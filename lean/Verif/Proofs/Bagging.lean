import Verif.Model.Bagging
import Mathlib.Tactic.Linarith
import Mathlib.Data.List.Count

/-! # The pipeline of bagging: what holds in every state, progress and the number of moves -/

namespace Golearn
namespace Pipeline
variable {V σ : Type}

/-- The votes a worker holds or will get. -/
def held (P : Nat → Option V) : Worker V → List (Option V)
  | .got i => [P i]
  | .put v => [v]
  | _ => []

/-- The models not yet sent. -/
def unsent (m : Nat) : MainPos → List Nat
  | .send i => List.range' i (m - i)
  | _ => []

structure Inv (p : Pipeline V σ) (R : List (Option V) → σ → Prop) (P : Nat → Option V) (s : PipeState V σ)
    (l : List (Option V)) : Prop where
  alive : s.crashed = false
  all : (l ++ (s.votes ++ (s.workers.flatMap (held P) ++ (s.pipe.map P ++ (unsent p.models s.pos).map P)))).Perm
    ((List.range p.models).map P)
  pipeLt : ∀ i ∈ s.pipe, i < p.models
  gotLt : ∀ i, Worker.got i ∈ s.workers → i < p.models
  counted : R l s.tally
  width : s.workers.length = p.cpus
  pipeClosed : s.pipeClosed = true ↔ ∀ i, s.pos ≠ .send i
  votesClosed : s.votesClosed = true ↔ s.pos = .waitVotes ∨ s.pos = .done
  quits : s.votesClosed = true → ∀ w ∈ s.workers, w = .quit
  quitEmpty : Worker.quit ∈ s.workers → s.pipeClosed = true ∧ s.pipe = []
  ended : s.collecting = false → s.votesClosed = true ∧ s.votes = []
  doneEnded : s.pos = .done → s.collecting = false

/-- The number of moves left for the main goroutine. -/
def mainLeft (m : Nat) : MainPos → Nat
  | .send i => 5 * (m - i) + 3
  | .waitWorkers => 2
  | .waitVotes => 1
  | .done => 0

def workerLeft : Worker V → Nat
  | .idle => 1
  | .got _ => 4
  | .put _ => 3
  | .quit => 0

/-- The number of moves left. -/
def movesLeft (p : Pipeline V σ) (s : PipeState V σ) : Nat :=
  mainLeft p.models s.pos + 4 * s.pipe.length + (s.workers.map workerLeft).sum + s.votes.length +
    (if s.collecting then 1 else 0)

theorem split_at {α : Type} (l : List α) (w : Nat) (a : α) (h : l[w]? = some a) :
    ∃ l1 l2, l = l1 ++ a :: l2 ∧ ∀ b, l.set w b = l1 ++ b :: l2 := by
  induction l generalizing w with
  | nil => simp at h
  | cons x xs ih =>
    cases w with
    | zero =>
      simp only [List.getElem?_cons_zero, Option.some.injEq] at h
      subst h
      exact ⟨[], xs, rfl, fun b => rfl⟩
    | succ w =>
      obtain ⟨l1, l2, h1, h2⟩ := ih w (by simpa using h)
      exact ⟨x :: l1, l2, by rw [h1]; rfl, fun b => by simp [h2 b]⟩

variable {p : Pipeline V σ} {R : List (Option V) → σ → Prop} {P : Nat → Option V}

theorem inv_start {t : σ} (h0 : R [] t) : p.Inv R P (p.start t) [] where
  alive := rfl
  all := by
    have : (List.replicate p.cpus (Worker.idle : Worker V)).flatMap (held P) = [] := by
      rw [List.flatMap_eq_nil_iff]
      intro w hw
      rw [List.eq_of_mem_replicate hw]; rfl
    simp [start, unsent, this, List.range_eq_range']
  pipeLt := by simp [start]
  gotLt := by
    intro i hi
    cases List.eq_of_mem_replicate hi
  counted := h0
  width := by simp [start]
  pipeClosed := by simp [start]
  votesClosed := by simp [start]
  quits := by simp [start]
  quitEmpty := by
    intro h
    cases List.eq_of_mem_replicate h
  ended := by simp [start]
  doneEnded := by simp [start]

theorem movesLeft_start (t : σ) : p.movesLeft (p.start t) = 5 * p.models + p.cpus + 4 := by
  have : ((List.replicate p.cpus (Worker.idle : Worker V)).map workerLeft).sum = p.cpus := by
    simp [workerLeft]
  simp only [movesLeft, start, mainLeft, this, List.length_nil, if_true]
  omega

/-- Every move that does not end the program keeps the invariant and uses up exactly one of the moves left. -/
theorem inv_step (hp : ∀ i v, i < p.models → p.predict i = some v → v = P i)
    (hR : ∀ l t k i t', R l t → i < p.models → p.count k t (P i) = some t' → R (l ++ [P i]) t')
    {s s' : PipeState V σ} {l : List (Option V)} {t : Thread} (I : p.Inv R P s l) (h : p.step s t = some s')
    (hnc : s'.crashed = false) : (∃ l', p.Inv R P s' l') ∧ p.movesLeft s' + 1 = p.movesLeft s := by
  classical
  have hcr := I.alive
  unfold step at h
  rw [hcr] at h
  simp only [Bool.false_eq_true, if_false] at h
  cases t with
  | main =>
    simp only [mainStep] at h
    cases hpos : s.pos with
    | send i =>
      rw [hpos] at h
      simp only at h
      have hpc : s.pipeClosed = false := by
        cases hc : s.pipeClosed with
        | false => rfl
        | true => exact absurd hpos (I.pipeClosed.1 hc i)
      have hvc : s.votesClosed = false := by
        cases hc : s.votesClosed with
        | false => rfl
        | true => rcases I.votesClosed.1 hc with e | e <;> rw [hpos] at e <;> cases e
      have hco : s.collecting = true := by
        cases hc : s.collecting with
        | true => rfl
        | false => rw [(I.ended hc).1] at hvc; cases hvc
      by_cases hi : i < p.models
      · rw [if_pos hi] at h
        by_cases hl : s.pipe.length < p.cpus
        · rw [if_pos hl, Option.some.injEq] at h
          subst h
          refine ⟨⟨l, ?_⟩, ?_⟩
          · exact {
              alive := hcr
              all := by
                have e : unsent p.models (.send i) = i :: unsent p.models (.send (i + 1)) := by
                  simp only [unsent]
                  rw [show p.models - i = (p.models - (i + 1)) + 1 by omega, List.range'_succ]
                have h1 := I.all
                rw [hpos, e] at h1
                simpa using h1
              pipeLt := by
                intro j hj
                rcases List.mem_append.1 hj with hj | hj
                · exact I.pipeLt j hj
                · rw [List.mem_singleton.1 hj]; exact hi
              gotLt := I.gotLt
              counted := I.counted
              width := I.width
              pipeClosed := by simp [hpc]
              votesClosed := by simp [hvc]
              quits := I.quits
              quitEmpty := fun hq => by
                have := (I.quitEmpty hq).1
                rw [hpc] at this; cases this
              ended := I.ended
              doneEnded := by simp }
          · simp only [movesLeft, hpos, mainLeft, List.length_append, List.length_singleton]
            omega
        · rw [if_neg hl] at h; cases h
      · rw [if_neg hi, Option.some.injEq] at h
        subst h
        refine ⟨⟨l, ?_⟩, ?_⟩
        · exact {
            alive := hcr
            all := by
              have h1 := I.all
              rw [hpos] at h1
              have e : unsent p.models (.send i) = [] := by
                simp only [unsent]
                rw [show p.models - i = 0 by omega]; rfl
              rw [e] at h1
              simpa [unsent] using h1
            pipeLt := I.pipeLt
            gotLt := I.gotLt
            counted := I.counted
            width := I.width
            pipeClosed := by simp
            votesClosed := by simp [hvc]
            quits := I.quits
            quitEmpty := fun hq => ⟨rfl, (I.quitEmpty hq).2⟩
            ended := I.ended
            doneEnded := by simp }
        · simp only [movesLeft, hpos, mainLeft]
          omega
    | waitWorkers =>
      rw [hpos] at h
      simp only at h
      split at h
      · rename_i hall
        rw [Option.some.injEq] at h
        subst h
        have hvc : s.votesClosed = false := by
          cases hc : s.votesClosed with
          | false => rfl
          | true => rcases I.votesClosed.1 hc with e | e <;> rw [hpos] at e <;> cases e
        have hco : s.collecting = true := by
          cases hc : s.collecting with
          | true => rfl
          | false => rw [(I.ended hc).1] at hvc; cases hvc
        refine ⟨⟨l, ?_⟩, ?_⟩
        · exact {
            alive := hcr
            all := by
              have h1 := I.all
              rw [hpos] at h1
              simpa [unsent] using h1
            pipeLt := I.pipeLt
            gotLt := I.gotLt
            counted := I.counted
            width := I.width
            pipeClosed := by
              have : s.pipeClosed = true := I.pipeClosed.2 (by intro i; rw [hpos]; simp)
              simp [this]
            votesClosed := by simp
            quits := by
              intro _ w hw
              have := List.all_eq_true.1 hall w hw
              cases w <;> simp_all [Worker.hasQuit]
            quitEmpty := I.quitEmpty
            ended := fun hc => by rw [hco] at hc; cases hc
            doneEnded := by simp }
        · simp only [movesLeft, hpos, mainLeft]
          omega
      · cases h
    | waitVotes =>
      rw [hpos] at h
      simp only at h
      split at h
      · cases h
      · rename_i hco
        rw [Option.some.injEq] at h
        subst h
        have hvc : s.votesClosed = true := I.votesClosed.2 (Or.inl hpos)
        refine ⟨⟨l, ?_⟩, ?_⟩
        · exact {
            alive := hcr
            all := by
              have h1 := I.all
              rw [hpos] at h1
              simpa [unsent] using h1
            pipeLt := I.pipeLt
            gotLt := I.gotLt
            counted := I.counted
            width := I.width
            pipeClosed := by
              have : s.pipeClosed = true := I.pipeClosed.2 (by intro i; rw [hpos]; simp)
              simp [this]
            votesClosed := by simp [hvc]
            quits := I.quits
            quitEmpty := I.quitEmpty
            ended := I.ended
            doneEnded := fun _ => by simpa using hco }
        · simp only [movesLeft, hpos, mainLeft]
          omega
    | done => rw [hpos] at h; cases h
  | worker w =>
    simp only [workerStep] at h
    cases hw : s.workers[w]? with
    | none => rw [hw] at h; cases h
    | some st =>
      rw [hw] at h
      obtain ⟨l1, l2, e1, e2⟩ := split_at _ _ _ hw
      have hmem : st ∈ s.workers := by rw [e1]; simp
      have f1 : s.workers.flatMap (held P) = l1.flatMap (held P) ++ (held P st ++ l2.flatMap (held P)) := by
        rw [e1, List.flatMap_append, List.flatMap_cons]
      have f2 : ∀ b, (s.workers.set w b).flatMap (held P) = l1.flatMap (held P) ++ (held P b ++ l2.flatMap (held P)) := by
        intro b
        rw [e2, List.flatMap_append, List.flatMap_cons]
      have g1 : (s.workers.map workerLeft).sum = (l1.map workerLeft).sum + (workerLeft st + (l2.map workerLeft).sum) := by
        rw [e1, List.map_append, List.sum_append, List.map_cons, List.sum_cons]
      have g2 : ∀ b, ((s.workers.set w b).map workerLeft).sum =
          (l1.map workerLeft).sum + (workerLeft b + (l2.map workerLeft).sum) := by
        intro b
        rw [e2, List.map_append, List.sum_append, List.map_cons, List.sum_cons]
      have hold : ∀ {b x}, x ∈ s.workers.set w b → x = b ∨ x ∈ s.workers := by
        intro b x hx
        rw [e2 b] at hx
        rw [e1]
        simp only [List.mem_append, List.mem_cons] at hx ⊢
        tauto
      cases st with
      | idle =>
        have hvc : s.votesClosed = false := by
          cases hc : s.votesClosed with
          | false => rfl
          | true => cases I.quits hc _ hmem
        cases hpipe : s.pipe with
        | cons i rest =>
          rw [hpipe] at h
          simp only [Option.some.injEq] at h
          subst h
          refine ⟨⟨l, ?_⟩, ?_⟩
          · exact {
              alive := hcr
              all := by
                refine List.Perm.trans ?_ I.all
                rw [List.perm_iff_count]
                intro x
                simp only [f2, hpipe, f1, held, List.map_cons, List.count_append,
                  List.count_cons, List.count_nil, List.append_nil, List.nil_append]
                omega
              pipeLt := fun j hj => I.pipeLt j (by rw [hpipe]; exact List.mem_cons_of_mem _ hj)
              gotLt := by
                intro j hj
                rcases hold hj with e | e
                · cases e
                  exact I.pipeLt i (by rw [hpipe]; simp)
                · exact I.gotLt j e
              counted := I.counted
              width := by simpa using I.width
              pipeClosed := I.pipeClosed
              votesClosed := I.votesClosed
              quits := fun hc => by
                have hc' : s.votesClosed = true := hc
                rw [hvc] at hc'; cases hc'
              quitEmpty := by
                intro hq
                rcases hold hq with e | e
                · cases e
                · have := (I.quitEmpty e).2
                  rw [hpipe] at this; cases this
              ended := I.ended
              doneEnded := I.doneEnded }
          · simp only [movesLeft, hpipe, g2, g1, workerLeft,
              List.length_cons]
            omega
        | nil =>
          rw [hpipe] at h
          simp only at h
          split at h
          · rename_i hpc
            rw [Option.some.injEq] at h
            subst h
            refine ⟨⟨l, ?_⟩, ?_⟩
            · exact {
                alive := hcr
                all := by
                  refine List.Perm.trans ?_ I.all
                  rw [List.perm_iff_count]
                  intro x
                  simp only [f2, f1, held, hpipe, List.count_append, List.nil_append, List.map_nil, List.count_nil]
                pipeLt := by simp
                gotLt := by
                  intro j hj
                  rcases hold hj with e | e
                  · cases e
                  · exact I.gotLt j e
                counted := I.counted
                width := by simpa using I.width
                pipeClosed := I.pipeClosed
                votesClosed := I.votesClosed
                quits := fun hc => by
                  have hc' : s.votesClosed = true := hc
                  rw [hvc] at hc'; cases hc'
                quitEmpty := fun _ => ⟨hpc, rfl⟩
                ended := I.ended
                doneEnded := I.doneEnded }
            · simp only [movesLeft, hpipe, g2, g1, workerLeft]
              omega
          · cases h
      | got i =>
        have hvc : s.votesClosed = false := by
          cases hc : s.votesClosed with
          | false => rfl
          | true => cases I.quits hc _ hmem
        simp only at h
        cases hpr : p.predict i with
        | none =>
          rw [hpr] at h
          simp only [Option.some.injEq] at h
          subst h
          cases hnc
        | some v =>
        rw [hpr] at h
        simp only [Option.some.injEq] at h
        cases hp i v (I.gotLt i hmem) hpr
        subst h
        refine ⟨⟨l, ?_⟩, ?_⟩
        · exact {
            alive := hcr
            all := by
              refine List.Perm.trans ?_ I.all
              rw [List.perm_iff_count]
              intro x
              simp only [f2, f1, held, List.count_append]
            pipeLt := I.pipeLt
            gotLt := by
              intro j hj
              rcases hold hj with e | e
              · cases e
              · exact I.gotLt j e
            counted := I.counted
            width := by simpa using I.width
            pipeClosed := I.pipeClosed
            votesClosed := I.votesClosed
            quits := fun hc => by
              have hc' : s.votesClosed = true := hc
              rw [hvc] at hc'; cases hc'
            quitEmpty := by
              intro hq
              rcases hold hq with e | e
              · cases e
              · exact I.quitEmpty e
            ended := I.ended
            doneEnded := I.doneEnded }
        · simp only [movesLeft, g2, g1, workerLeft]
          omega
      | put v =>
        have hvc : s.votesClosed = false := by
          cases hc : s.votesClosed with
          | false => rfl
          | true => cases I.quits hc _ hmem
        simp only at h
        rw [if_neg (by rw [hvc]; simp)] at h
        split at h
        · rw [Option.some.injEq] at h
          subst h
          refine ⟨⟨l, ?_⟩, ?_⟩
          · exact {
              alive := hcr
              all := by
                refine List.Perm.trans ?_ I.all
                rw [List.perm_iff_count]
                intro x
                simp only [f2, f1, held, List.count_append, List.nil_append,
                  List.count_cons, List.count_nil]
                omega
              pipeLt := I.pipeLt
              gotLt := by
                intro j hj
                rcases hold hj with e | e
                · cases e
                · exact I.gotLt j e
              counted := I.counted
              width := by simpa using I.width
              pipeClosed := I.pipeClosed
              votesClosed := I.votesClosed
              quits := fun hc => by
                have hc' : s.votesClosed = true := hc
                rw [hvc] at hc'; cases hc'
              quitEmpty := by
                intro hq
                rcases hold hq with e | e
                · cases e
                · exact I.quitEmpty e
              ended := fun hc => by
                have := (I.ended hc).1
                rw [hvc] at this; cases this
              doneEnded := I.doneEnded }
          · simp only [movesLeft, g2, g1, workerLeft,
              List.length_append, List.length_singleton]
            omega
        · cases h
      | quit => cases h
  | collector =>
    simp only [collectorStep] at h
    cases hco : s.collecting with
    | false => rw [hco] at h; cases h
    | true =>
      rw [if_pos hco] at h
      cases hv : s.votes with
      | cons v rest =>
        rw [hv] at h
        simp only at h
        have hvm : v ∈ (List.range p.models).map P := I.all.mem_iff.1 (by simp [hv])
        obtain ⟨i, hi, rfl⟩ := List.mem_map.1 hvm
        cases c1 : p.count s.rounds s.tally (P i) with
        | none =>
          rw [c1] at h
          simp only [Option.some.injEq] at h
          subst h
          cases hnc
        | some t' =>
        have c2 := hR l s.tally s.rounds i t' I.counted (List.mem_range.1 hi) c1
        rw [c1] at h
        simp only [Option.some.injEq] at h
        subst h
        refine ⟨⟨l ++ [P i], ?_⟩, ?_⟩
        · exact {
            alive := hcr
            all := by
              have := I.all
              rw [hv] at this
              simpa using this
            pipeLt := I.pipeLt
            gotLt := I.gotLt
            counted := c2
            width := I.width
            pipeClosed := I.pipeClosed
            votesClosed := I.votesClosed
            quits := I.quits
            quitEmpty := I.quitEmpty
            ended := fun hc => by
              have hc' : s.collecting = false := hc
              rw [hco] at hc'; cases hc'
            doneEnded := I.doneEnded }
        · simp only [movesLeft, hv, List.length_cons]
          omega
      | nil =>
        rw [hv] at h
        simp only at h
        split at h
        · rename_i hvc
          rw [Option.some.injEq] at h
          subst h
          refine ⟨⟨l, ?_⟩, ?_⟩
          · exact {
              alive := hcr
              all := by
                have := I.all
                rw [hv] at this
                exact this
              pipeLt := I.pipeLt
              gotLt := I.gotLt
              counted := I.counted
              width := I.width
              pipeClosed := I.pipeClosed
              votesClosed := I.votesClosed
              quits := I.quits
              quitEmpty := I.quitEmpty
              ended := fun _ => ⟨hvc, rfl⟩
              doneEnded := fun _ => rfl }
          · simp only [movesLeft, hv, hco, if_true, Bool.false_eq_true, if_false, List.length_nil]
        · cases h

theorem step_crashed {s s' : PipeState V σ} {ts : List Thread} (h : p.exec s ts = some s') (hc : s.crashed = true) :
    s' = s ∧ ts = [] := by
  cases ts with
  | nil => simp only [exec, Option.some.injEq] at h; exact ⟨h.symm, rfl⟩
  | cons t ts => simp [exec, step, hc] at h

theorem inv_exec (hp : ∀ i v, i < p.models → p.predict i = some v → v = P i)
    (hR : ∀ l t k i t', R l t → i < p.models → p.count k t (P i) = some t' → R (l ++ [P i]) t')
    (ts : List Thread) {s s' : PipeState V σ} {l : List (Option V)} (I : p.Inv R P s l) (h : p.exec s ts = some s')
    (hnc : s'.crashed = false) : (∃ l', p.Inv R P s' l') ∧ p.movesLeft s' + ts.length = p.movesLeft s := by
  induction ts generalizing s l with
  | nil =>
    simp only [exec, Option.some.injEq] at h
    subst h
    exact ⟨⟨l, I⟩, rfl⟩
  | cons t ts ih =>
    simp only [exec, Option.bind_eq_some_iff] at h
    obtain ⟨s1, h1, h2⟩ := h
    have hs1 : s1.crashed = false := by
      cases hc : s1.crashed with
      | false => rfl
      | true =>
        rw [(step_crashed h2 hc).1, hc] at hnc
        cases hnc
    obtain ⟨⟨l1, I1⟩, m1⟩ := inv_step hp hR I h1 hs1
    obtain ⟨h3, m2⟩ := ih I1 h2
    exact ⟨h3, by rw [List.length_cons]; omega⟩

/-- If no model and no count panics, no move ends the program. -/
theorem alive_step (hp : ∀ i, i < p.models → ∃ v, p.predict i = some v)
    (hR : ∀ l t k i, R l t → i < p.models → ∃ t', p.count k t (P i) = some t')
    {s s' : PipeState V σ} {l : List (Option V)} {t : Thread} (I : p.Inv R P s l) (h : p.step s t = some s') :
    s'.crashed = false := by
  have hcr := I.alive
  unfold step at h
  rw [if_neg (by rw [hcr]; simp)] at h
  cases t with
  | main =>
    simp only [mainStep] at h
    repeat' split at h
    all_goals first
      | (cases h; done)
      | (rw [Option.some.injEq] at h; subst h; exact hcr)
  | worker w =>
    simp only [workerStep] at h
    split at h
    · repeat' split at h
      all_goals first
        | (cases h; done)
        | (rw [Option.some.injEq] at h; subst h; exact hcr)
    · rename_i i hw
      obtain ⟨v, hv⟩ := hp i (I.gotLt i (List.mem_of_getElem? hw))
      rw [hv] at h
      simp only [Option.some.injEq] at h
      subst h
      exact hcr
    · rename_i v hw
      split at h
      · rename_i hvc
        cases I.quits hvc _ (List.mem_of_getElem? hw)
      · split at h
        · rw [Option.some.injEq] at h; subst h; exact hcr
        · cases h
    · cases h
    · cases h
  | collector =>
    simp only [collectorStep] at h
    split at h
    · split at h
      · rename_i v rest hv
        have hvm : v ∈ (List.range p.models).map P := I.all.mem_iff.1 (by simp [hv])
        obtain ⟨i, hi, rfl⟩ := List.mem_map.1 hvm
        obtain ⟨t', c1⟩ := hR l s.tally s.rounds i I.counted (List.mem_range.1 hi)
        rw [c1] at h
        simp only [Option.some.injEq] at h
        subst h
        exact hcr
      · split at h
        · rw [Option.some.injEq] at h; subst h; exact hcr
        · cases h
    · cases h

theorem alive_exec (hp : ∀ i, i < p.models → p.predict i = some (P i))
    (hR : ∀ l t k i, R l t → i < p.models → ∃ t', p.count k t (P i) = some t' ∧ R (l ++ [P i]) t')
    (ts : List Thread) {s s' : PipeState V σ} {l : List (Option V)} (I : p.Inv R P s l) (h : p.exec s ts = some s') :
    (∃ l', p.Inv R P s' l') ∧ p.movesLeft s' + ts.length = p.movesLeft s := by
  have hp' : ∀ i v, i < p.models → p.predict i = some v → v = P i := by
    intro i v hi hv
    rw [hp i hi] at hv
    exact (Option.some.inj hv).symm
  have hR' : ∀ l t k i t', R l t → i < p.models → p.count k t (P i) = some t' → R (l ++ [P i]) t' := by
    intro l t k i t' h1 h2 h3
    obtain ⟨t2, h4, h5⟩ := hR l t k i h1 h2
    rw [h4] at h3
    cases h3
    exact h5
  have key : s'.crashed = false := by
    induction ts generalizing s l with
    | nil =>
      simp only [exec, Option.some.injEq] at h
      subst h
      exact I.alive
    | cons t ts ih =>
      simp only [exec, Option.bind_eq_some_iff] at h
      obtain ⟨s1, h1, h2⟩ := h
      have ha := alive_step (fun i hi => ⟨_, hp i hi⟩)
        (fun l t k i a b => by obtain ⟨t', c, _⟩ := hR l t k i a b; exact ⟨t', c⟩) I h1
      obtain ⟨⟨l1, I1⟩, _⟩ := inv_step hp' hR' I h1 ha
      exact ih I1 h2
  exact inv_exec hp' hR' ts I h key

/-- A goroutine can always move until the main one is past the last wait. -/
theorem inv_progress (hc : 0 < p.cpus)
    {s : PipeState V σ} {l : List (Option V)} (I : p.Inv R P s l) (h : s.pos ≠ .done) :
    ∃ t s', p.step s t = some s' := by
  have hcr := I.alive
  have hcoll : s.votes ≠ [] ∨ s.votesClosed = true → s.collecting = true → ∃ t s', p.step s t = some s' := by
    intro h1 h2
    refine ⟨.collector, ?_⟩
    simp only [step, hcr, Bool.false_eq_true, if_false, collectorStep, h2, if_true]
    cases hv : s.votes with
    | cons v rest =>
      simp only
      cases p.count s.rounds s.tally v <;> exact ⟨_, rfl⟩
    | nil =>
      rcases h1 with h1 | h1
      · exact absurd hv h1
      · simp only [h1, if_true]; exact ⟨_, rfl⟩
  have hwork : ∀ w ∈ s.workers, w ≠ .quit → (s.pipe ≠ [] ∨ s.pipeClosed = true) → ∃ t s', p.step s t = some s' := by
    intro w hw hq hpipe
    obtain ⟨k, hk⟩ := List.getElem?_of_mem hw
    have hvc : s.votesClosed = false := by
      cases hc : s.votesClosed with
      | false => rfl
      | true => exact absurd (I.quits hc w hw) hq
    have hco : s.collecting = true := by
      cases hc : s.collecting with
      | true => rfl
      | false => rw [(I.ended hc).1] at hvc; cases hvc
    cases w with
    | idle =>
      refine ⟨.worker k, ?_⟩
      simp only [step, hcr, Bool.false_eq_true, if_false, workerStep, hk]
      cases hpp : s.pipe with
      | cons i rest => exact ⟨_, rfl⟩
      | nil =>
        rcases hpipe with h1 | h1
        · exact absurd hpp h1
        · simp only [h1, if_true]; exact ⟨_, rfl⟩
    | got i =>
      refine ⟨.worker k, ?_⟩
      simp only [step, hcr, Bool.false_eq_true, if_false, workerStep, hk]
      cases p.predict i <;> exact ⟨_, rfl⟩
    | put v =>
      by_cases hl : s.votes.length < p.cpus
      · refine ⟨.worker k, ?_⟩
        simp only [step, hcr, Bool.false_eq_true, if_false, workerStep, hk, hvc, if_pos hl]
        exact ⟨_, rfl⟩
      · refine hcoll (Or.inl ?_) hco
        intro e
        rw [e] at hl
        exact hl hc
    | quit => exact absurd rfl hq
  cases hpos : s.pos with
  | send i =>
    by_cases hi : i < p.models
    · by_cases hl : s.pipe.length < p.cpus
      · refine ⟨.main, ?_⟩
        simp only [step, hcr, Bool.false_eq_true, if_false, mainStep, hpos, if_pos hi, if_pos hl]
        exact ⟨_, rfl⟩
      · have hw : 0 < s.workers.length := by rw [I.width]; exact hc
        refine hwork s.workers[0] (List.getElem_mem hw) ?_ (Or.inl ?_)
        · intro e
          have := (I.quitEmpty (e ▸ List.getElem_mem hw)).1
          exact I.pipeClosed.1 this i hpos
        · intro e
          rw [e] at hl
          exact hl hc
    · refine ⟨.main, ?_⟩
      simp only [step, hcr, Bool.false_eq_true, if_false, mainStep, hpos, if_neg hi]
      exact ⟨_, rfl⟩
  | waitWorkers =>
    by_cases hall : s.workers.all Worker.hasQuit = true
    · refine ⟨.main, ?_⟩
      simp only [step, hcr, Bool.false_eq_true, if_false, mainStep, hpos]
      rw [if_pos hall]
      exact ⟨_, rfl⟩
    · rw [List.all_eq_true] at hall
      push Not at hall
      obtain ⟨w, hw, hq⟩ := hall
      refine hwork w hw ?_ (Or.inr (I.pipeClosed.2 (by intro i; rw [hpos]; simp)))
      rintro rfl
      exact hq rfl
  | waitVotes =>
    cases hco : s.collecting with
    | true => exact hcoll (Or.inr (I.votesClosed.2 (Or.inl hpos))) hco
    | false =>
      refine ⟨.main, ?_⟩
      simp only [step, hcr, Bool.false_eq_true, if_false, mainStep, hpos, hco]
      exact ⟨_, rfl⟩
  | done => exact absurd hpos h

/-- When the main goroutine is past the last wait, every vote has been counted once and no move is left. -/
theorem inv_done (hc : 0 < p.cpus) {s : PipeState V σ} {l : List (Option V)} (I : p.Inv R P s l) (h : s.pos = .done) :
    l.Perm ((List.range p.models).map P) ∧ R l s.tally ∧ p.movesLeft s = 0 := by
  have hco := I.doneEnded h
  obtain ⟨hvc, hv⟩ := I.ended hco
  have hq := I.quits hvc
  have hw : 0 < s.workers.length := by rw [I.width]; exact hc
  have hpipe := (I.quitEmpty (hq _ (List.getElem_mem hw) ▸ List.getElem_mem hw)).2
  have hheld : s.workers.flatMap (held P) = [] := by
    rw [List.flatMap_eq_nil_iff]
    intro w hw
    rw [hq w hw]; rfl
  have hsum : (s.workers.map workerLeft).sum = 0 := by
    have e : s.workers.map workerLeft = s.workers.map fun _ => 0 :=
      List.map_congr_left fun w hw => by rw [hq w hw]; rfl
    rw [e]
    clear e hheld hpipe hw hq
    induction s.workers with
    | nil => rfl
    | cons x xs ih => rw [List.map_cons, List.sum_cons, ih]
  refine ⟨?_, I.counted, ?_⟩
  · have := I.all
    rw [hv, hheld, hpipe, h] at this
    simpa [unsent] using this
  · simp [movesLeft, h, mainLeft, hpipe, hsum, hv, hco]

end Pipeline
end Golearn
