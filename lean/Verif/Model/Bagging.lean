import Verif.Model.Regression
import Verif.Model.Sort

/-!
# Bagging (meta/bagging.go) and random forests (ensemble/randomforest.go)

Goroutines take turns in any order. `Predict` has one main goroutine, one that collects the votes and a number of
workers; a schedule is the list of the goroutines in the order in which they move. What a goroutine does between two
operations on a channel or wait group touches no variable another goroutine writes, so it is part of one move.
-/

namespace Golearn

/-! ## The pipeline of `Predict` -/

/-- Where a worker is, meta/bagging.go:140-152: about to receive, holding the number of a model, about to send the
predictions (`none` is a nil grid), returned. -/
inductive Worker (V : Type) where
  | idle
  | got (i : Nat)
  | put (v : Option V)
  | quit
  deriving DecidableEq, Repr

/-- The worker has called `processwait.Done()`, meta/bagging.go:148. -/
def Worker.hasQuit {V : Type} : Worker V → Bool
  | .quit => true
  | _ => false

/-- Where the main goroutine is: about to send a model (or to close the channel when all are sent), waiting for the
workers, waiting for the votes, past the wait. -/
inductive MainPos where
  | send (i : Nat)
  | waitWorkers
  | waitVotes
  | done
  deriving DecidableEq, Repr

/-- The goroutines that can move. -/
inductive Thread where
  | main
  | worker (w : Nat)
  | collector
  deriving DecidableEq, Repr

/-- What the pipeline works on. `cpus` is `runtime.NumCPU()`, `predict i` what model `i` returns (`none` if it
panics, `some none` if it returns no grid) and `count k` how the collector adds the vote it receives in round `k`
(`none` if it panics). -/
structure Pipeline (V σ : Type) where
  cpus : Nat
  models : Nat
  predict : Nat → Option (Option V)
  count : Nat → σ → Option V → Option σ

/-- The channels and local states. A panic in any goroutine ends the program: `crashed`. -/
structure PipeState (V σ : Type) where
  pos : MainPos
  pipe : List Nat
  pipeClosed : Bool
  workers : List (Worker V)
  votes : List (Option V)
  votesClosed : Bool
  rounds : Nat
  tally : σ
  collecting : Bool
  crashed : Bool

namespace Pipeline
variable {V σ : Type}

/-- The state after the goroutines have been started, meta/bagging.go:104-154. They may start to run earlier, but all
they can do before line 156 is wait. -/
def start (p : Pipeline V σ) (t : σ) : PipeState V σ :=
  ⟨.send 0, [], false, List.replicate p.cpus .idle, [], false, 0, t, true, false⟩

/-- The next move of the main goroutine, meta/bagging.go:156-162. A channel holds at most `cpus` values; closing the
votes belongs to the move that ends the wait. -/
def mainStep (p : Pipeline V σ) (s : PipeState V σ) : Option (PipeState V σ) :=
  match s.pos with
  | .send i =>
    if i < p.models then
      (if s.pipe.length < p.cpus then some { s with pos := .send (i + 1), pipe := s.pipe ++ [i] } else none)
    else some { s with pos := .waitWorkers, pipeClosed := true }
  | .waitWorkers =>
    if s.workers.all Worker.hasQuit
    then some { s with pos := .waitVotes, votesClosed := true } else none
  | .waitVotes => if s.collecting then none else some { s with pos := .done }
  | .done => none

/-- The next move of worker `w`, meta/bagging.go:140-152. Sending on a closed channel panics. -/
def workerStep (p : Pipeline V σ) (s : PipeState V σ) (w : Nat) : Option (PipeState V σ) :=
  match s.workers[w]? with
  | some .idle =>
    match s.pipe with
    | i :: rest => some { s with pipe := rest, workers := s.workers.set w (.got i) }
    | [] => if s.pipeClosed then some { s with workers := s.workers.set w .quit } else none
  | some (.got i) =>
    match p.predict i with
    | some v => some { s with workers := s.workers.set w (.put v) }
    | none => some { s with crashed := true }
  | some (.put v) =>
    if s.votesClosed then some { s with crashed := true }
    else if s.votes.length < p.cpus
    then some { s with votes := s.votes ++ [v], workers := s.workers.set w .idle } else none
  | some .quit => none
  | none => none

/-- The next move of the collector, meta/bagging.go:113-133. -/
def collectorStep (p : Pipeline V σ) (s : PipeState V σ) : Option (PipeState V σ) :=
  if s.collecting then
    match s.votes with
    | v :: rest =>
      match p.count s.rounds s.tally v with
      | some t => some { s with votes := rest, tally := t, rounds := s.rounds + 1 }
      | none => some { s with crashed := true }
    | [] => if s.votesClosed then some { s with collecting := false } else none
  else none

/-- A move of one goroutine; `none` if it has to wait or has returned, or the program has ended. -/
def step (p : Pipeline V σ) (s : PipeState V σ) (t : Thread) : Option (PipeState V σ) :=
  if s.crashed then none
  else match t with
    | .main => p.mainStep s
    | .worker w => p.workerStep s w
    | .collector => p.collectorStep s

/-- The state after a schedule. -/
def exec (p : Pipeline V σ) : PipeState V σ → List Thread → Option (PipeState V σ)
  | s, [] => some s
  | s, t :: ts => (p.step s t).bind fun s' => p.exec s' ts

end Pipeline

/-! ## Votes -/

/-- The row callback of the collector, meta/bagging.go:118-126. -/
def tallyCallback (fo : FloatOps) (g : Grid) (m : GoMap Nat (GoMap String Nat)) (_vals : List Bytes) (row : Nat) :
    Res (GoMap Nat (GoMap String Nat) × Ctl) :=
  (getClass fo g row).map fun c => (m.set row (incr ((m.get? row).getD []) c), Ctl.cont)

/-- What the collector does with a vote, meta/bagging.go:117-127; calling a method of a nil grid panics. The error of
`MapOverRows` is ignored. `ord k g` is the order of the rows in round `k`. -/
def tallyVote (fo : FloatOps) (srt : List Spec → List Spec) (ord : Nat → Grid → List Nat) (k : Nat)
    (m : GoMap Nat (GoMap String Nat)) : Option Grid → Option (GoMap Nat (GoMap String Nat))
  | none => none
  | some g =>
    match (g.resolve srt g.allClassAttributes).bind fun sp => keepState (g.mapOverRows sp (ord k g) (tallyCallback fo g) m) m with
    | .ok m' => some m'
    | _ => none

/-- `for i := range voting`, meta/bagging.go:166-178; `ords i` is the order of iteration over the classes of row `i`. -/
def consensusLoop (fo : FloatOps) (parse : String → Option U64) (ords : Nat → List String → List String)
    (m : GoMap Nat (GoMap String Nat)) : List Nat → Dense → Res Dense
  | [], d => Res.ok d
  | i :: is, d =>
    let row := (m.get? i).getD []
    (setClass fo parse d i (argmaxLoop (fun c => (row.get? c).getD 0) (ords i (row.map Prod.fst)) ("", 0)).1).bind
      fun d' => consensusLoop fo parse ords m is d'

/-- A model after `Fit`: the classifiers and the attributes selected for each. A classifier returns a grid, an error
or panics. -/
structure Bagged where
  classifiers : List (Grid → Res Grid)
  selected : GoMap Nat (List Attr)

/-- `generatePredictionInstances`, meta/bagging.go:61-64. -/
def Bagged.predictionInstances (b : Bagged) (srt : List Spec → List Spec) (i : Nat) (g : Grid) : Res Grid :=
  (g.resolve srt ((b.selected.get? i).getD [])).map fun sp => Grid.viewFromAttrs g sp

/-- What a worker computes for model `i`, meta/bagging.go:143-145: the error of `Predict` is dropped. -/
def Bagged.predictModel (b : Bagged) (srt : List Spec → List Spec) (g : Grid) (i : Nat) : Option (Option Grid) :=
  match b.classifiers[i]? with
  | some f =>
    match (b.predictionInstances srt i g).orPanic with
    | .ok l =>
      match f l with
      | .ok v => some (some v)
      | .err => some none
      | .panic => none
    | _ => none
  | none => none

/-- The pipeline of `BaggedModel.Predict`. -/
def Bagged.pipeline (b : Bagged) (fo : FloatOps) (srt : List Spec → List Spec) (cpus : Nat) (ord : Nat → Grid → List Nat)
    (g : Grid) : Pipeline Grid (GoMap Nat (GoMap String Nat)) :=
  ⟨cpus, b.classifiers.length, b.predictModel srt g, tallyVote fo srt ord⟩

/-- What follows the wait, meta/bagging.go:165-179; `ordRows` is the order of iteration over the rows. -/
def Bagged.consensus (fo : FloatOps) (parse : String → Option U64) (pg : Nat) (ordRows : List Nat → List Nat)
    (ords : Nat → List String → List String) (g : Grid) (m : GoMap Nat (GoMap String Nat)) : Res Dense :=
  (generatePredictionVector pg g).bind fun ret => consensusLoop fo parse ords m (ordRows (m.map Prod.fst)) ret

/-! ## Training -/

/-- The selection loop, meta/bagging.go:31-47. `draw k` is the result of `rand.Intn` in round `k`. `none` means that
the given number of rounds was not enough. -/
def selectLoop (attrs : List Attr) (want : Nat) (draw : Nat → Nat) : Nat → Nat → List Attr → Option (Res (List Attr))
  | fuel, k, ret =>
    if want ≤ ret.length then some (Res.ok ret)
    else if attrs.isEmpty then some Res.panic
    else match fuel with
      | 0 => none
      | fuel + 1 =>
        match attrs[draw k]? with
        | some a =>
          selectLoop attrs want draw fuel (k + 1) (if ret.any (fun b => b.equals a) then ret else ret ++ [a])
        | none => some Res.panic

/-- `generateTrainingAttrs`, meta/bagging.go:25-56; `attrs` is the result of `NonClassAttributes`, in any order, and
`cls` that of `AllClassAttributes`. -/
def trainingAttrs (attrs cls : List Attr) (randomFeatures : Nat) (draw : Nat → Nat) (fuel : Nat) :
    Option (Res (List Attr)) :=
  (if randomFeatures = 0 then some (Res.ok attrs) else selectLoop attrs randomFeatures draw fuel 0 []).map
    fun r => r.map fun l => l ++ cls

/-- `generateTrainingInstances`, meta/bagging.go:69-74, once the attributes are selected. -/
def trainingInstances (srt : List Spec → List Spec) (rows : Nat → Nat) (g : Grid) (selected : List Attr) : Res Grid :=
  (sampleWithReplacement rows g g.size.2).bind fun s =>
    (s.resolve srt selected).map fun sp => Grid.viewFromAttrs s sp

/-- `RandomForest.Fit`, ensemble/randomforest.go:35-53: the number of random features and of trees given to the bagged
model, or an error. -/
def forestFit (g : Grid) (features size : Nat) : Res (Nat × Nat) :=
  if g.normalAttrs.length < features then Res.err else Res.ok (features, size)

/-! ## The goroutines of `Fit` -/

/-- Where the goroutine of one model is, meta/bagging.go:88-92: not started, about to store the attributes it selected
(line 52), about to fit the model and to report it (lines 90-91), returned. -/
inductive Fitter where
  | absent
  | started
  | stored
  | quit
  deriving DecidableEq, Repr

/-- The shared state of `Fit`: how many goroutines have been started, whether the wait is over, the goroutines, the
map of attributes. -/
structure FitState where
  next : Nat
  over : Bool
  fitters : List Fitter
  selected : GoMap Nat (List Attr)

/-- The state at meta/bagging.go:86. -/
def FitState.start (models : Nat) : FitState := ⟨0, false, List.replicate models .absent, []⟩

/-- A move of the main goroutine (`none`) or of the one for a model; `attrs i` is what model `i` selects. The map is
changed under a lock, so storing is one move. -/
def FitState.step (attrs : Nat → List Attr) (s : FitState) : Option Nat → Option FitState
  | none =>
    if s.next < s.fitters.length then some { s with next := s.next + 1, fitters := s.fitters.set s.next .started }
    else if s.over then none
    else if s.fitters.all (fun f => f == .quit) then some { s with over := true } else none
  | some i =>
    match s.fitters[i]? with
    | some .started => some { s with fitters := s.fitters.set i .stored, selected := s.selected.set i (attrs i) }
    | some .stored => some { s with fitters := s.fitters.set i .quit }
    | _ => none

/-- The state after a schedule. -/
def FitState.exec (attrs : Nat → List Attr) : FitState → List (Option Nat) → Option FitState
  | s, [] => some s
  | s, t :: ts => (s.step attrs t).bind fun s' => s'.exec attrs ts

end Golearn
