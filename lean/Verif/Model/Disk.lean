import Verif.Model.Save

/-!
# Saving to a disk that can fail (base/serialize.go:251-315, 383-426)

An entry goes through `tar.Writer` and `gzip.Writer` to the file. `gzip.Writer` keeps data in its buffers until they are full or
`Flush` is called. When the file cannot be written, it keeps the error and reports it from then on, and hands nothing more to the file;
`tar.Writer` passes the error on. These are assumptions about the standard library. An entry of which only a part reached the disk
counts as missing, see Spec/Crash.
-/

namespace Golearn

/-- An entry of an archive. -/
abbrev Entry := String × Payload

/-- What the disk does. `fails i = some k`: when data is handed to the file for the `i`-th time, writing fails after `k` entries.
`spills i`: the buffers are full at that time when an entry is written. `sync`: whether `Sync` and `Close` of the file succeed. -/
structure DiskEnv where
  fails : Nat → Option Nat
  spills : Nat → Bool
  sync : Bool

/-- A file that is being written: the entries on the disk, the entries in the buffers, whether `gzip.Writer` has an error, and how often
data was handed to the file. -/
structure Sink where
  onDisk : Archive
  pending : Archive
  broken : Bool
  calls : Nat
  deriving Repr

/-- A file that has just been opened; it is emptied, base/serialize.go:386. -/
def Sink.open : Sink := ⟨[], [], false, 0⟩

/-- `Flush` of `gzip.Writer`; the second result is `false` for an error. -/
def Sink.flush (D : DiskEnv) (s : Sink) : Sink × Bool :=
  if s.broken then (s, false)
  else match D.fails s.calls with
    | none => (⟨s.onDisk ++ s.pending, [], false, s.calls + 1⟩, true)
    | some k => (⟨s.onDisk ++ s.pending.take k, [], true, s.calls + 1⟩, false)

/-- `WriteHeader` and `Write`, as in base/serialize.go:301-309 and base/serialize_instances.go:250-355. -/
def Sink.put (D : DiskEnv) (s : Sink) (e : Entry) : Sink × Bool :=
  if s.broken then (s, false)
  else
    let s' : Sink := { s with pending := s.pending ++ [e] }
    if D.spills s.calls then s'.flush D else (s', true)

/-- `WriteBytesForKey`, base/serialize.go:291-315: the errors of the calls of `Flush` are dropped. -/
def Sink.writeForKey (D : DiskEnv) (s : Sink) (e : Entry) : Sink × Bool :=
  let r := s.put D e
  if r.2 then ((r.1.flush D).1, true) else r

/-- Writing entries one after the other, until there is an error. The entries marked `true` are written by `WriteBytesForKey`, the others
(those of tables and the first of the file) directly. -/
def Sink.putAll (D : DiskEnv) : Sink → List (Entry × Bool) → Sink × Bool
  | s, [] => (s, true)
  | s, (e, flushed) :: rest =>
    let r := if flushed then s.writeForKey D e else s.put D e
    if r.2 then putAll D r.1 rest else r

/-- `Close`, base/serialize.go:260-288. -/
def Sink.close (D : DiskEnv) (s : Sink) : Sink × Bool :=
  let r := s.flush D
  if r.2 then (r.1, D.sync) else r

/-- What a method `Save` does with `Close`. It returns its error: `KNNClassifier` (knn/knn.go:357-364), `OneVsAllModel`
(meta/one_v_all.go:327), `MultiLinearSVC` through that (ensemble/multisvc.go:127), `DecisionTreeNode` (trees/id3.go:134). It drops its error:
`RandomTree` (trees/random.go:98-100), `BaggedModel` (meta/bagging.go:209-211), `RandomForest` (ensemble/randomforest.go:80-82),
`BernoulliNBClassifier` (naive/bernoulli_nb.go:77-79), `LinearSVC` (linear_models/linearsvc.go:244-246). It does not call it:
`ID3DecisionTree` (trees/id3.go:568-575). -/
inductive Closing where
  | returned
  | dropped
  | missing
  deriving DecidableEq, Repr

/-- A method `Save` that writes these entries: the file afterwards, and whether success is reported. -/
def saveTo (D : DiskEnv) (c : Closing) (es : List (Entry × Bool)) : Sink × Bool :=
  let r := Sink.putAll D Sink.open es
  if r.2 then
    match c with
    | .returned => r.1.close D
    | .dropped => ((r.1.close D).1, true)
    | .missing => r
  else r

/-- `LinearSVC.Save`, linear_models/linearsvc.go:239-292: the error of writing the last entry is dropped as well. -/
def saveSvcTo (D : DiskEnv) (es : List (Entry × Bool)) (last : Entry) : Sink × Bool :=
  let r := Sink.putAll D Sink.open es
  if r.2 then ((((r.1.writeForKey D last).1).close D).1, true) else r

end Golearn
