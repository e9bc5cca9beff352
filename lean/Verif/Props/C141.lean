import Verif.Proofs.Disk
import Verif.Props.C140

/-! # C141: a save that reports success -/

namespace Golearn

/-- The full claim: when saving reports success, all entries are on the disk, whatever the disk does. It fails, see
`C141_dropped_loses`, `C141_missing_loses`. -/
def C141_full (c : Closing) : Prop :=
  ∀ (D : DiskEnv) (es : List (Entry × Bool)), (saveTo D c es).2 = true → (saveTo D c es).1.onDisk = es.map Prod.fst

/-! ## What holds -/

/-- Whatever the disk does, and whether or not success is reported: the file has a first part of the entries. -/
theorem C141_cut_short (D : DiskEnv) (c : Closing) (es : List (Entry × Bool)) :
    CutShort (saveTo D c es).1.onDisk (es.map Prod.fst) := by
  obtain ⟨h1, h2, _⟩ := holds_putAll D es holds_open
  rw [List.nil_append] at h1 h2
  unfold saveTo
  dsimp only
  split
  · rename_i h
    cases c with
    | returned => exact (holds_close D (h2 h)).1
    | dropped => exact (holds_close D (h2 h)).1
    | missing => exact h1
  · exact h1

/-- The same for linear support vector classifiers. -/
theorem C141_svc_cut_short (D : DiskEnv) (es : List (Entry × Bool)) (last : Entry) :
    CutShort (saveSvcTo D es last).1.onDisk (es.map Prod.fst ++ [last]) := by
  obtain ⟨h1, h2, _⟩ := holds_putAll D es holds_open
  rw [List.nil_append] at h1 h2
  unfold saveSvcTo
  dsimp only
  split
  · rename_i h
    exact (holds_close D (holds_write D (h2 h) last).1).1
  · exact cut_trans h1 ⟨[last], rfl⟩

/-- The full claim, for those who return the error of `Close`: nearest neighbours classifiers, one-vs-all models, linear support vector
classifiers for several classes. -/
theorem C141_returned : C141_full .returned := by
  intro D es h
  obtain ⟨_, h2, _⟩ := holds_putAll D es holds_open
  rw [List.nil_append] at h2
  unfold saveTo at h ⊢
  dsimp only at h ⊢
  split at h
  · rename_i h1
    rw [if_pos h1]
    exact (holds_close D (h2 h1)).2 h
  · rename_i h1
    exact absurd h h1

/-- An error is not reported without a reason: when the disk does not fail, saving succeeds and all entries are on the disk. Without
`Close` this needs the last entry to be flushed. -/
theorem C141_good_disk (D : DiskEnv) (hD : ∀ i, D.fails i = none) (hs : D.sync = true) (c : Closing) (es : List (Entry × Bool))
    (hc : c = .missing → ∃ init e, es = init ++ [(e, true)]) :
    (saveTo D c es).2 = true ∧ (saveTo D c es).1.onDisk = es.map Prod.fst := by
  have hf : ∀ s : Sink, s.broken = false → s.flush D = (⟨s.onDisk ++ s.pending, [], false, s.calls + 1⟩, true) := by
    intro s h; simp [Sink.flush, h, hD]
  have hp : ∀ (s : Sink) (e : Entry), s.broken = false → (s.put D e).2 = true ∧ (s.put D e).1.broken = false := by
    intro s e h
    unfold Sink.put
    rw [h]
    dsimp only
    split
    · rename_i x; cases x
    · split
      · rw [hf _ rfl]; exact ⟨rfl, rfl⟩
      · exact ⟨rfl, rfl⟩
  have hw : ∀ (s : Sink) (e : Entry), s.broken = false → (s.writeForKey D e).2 = true ∧ (s.writeForKey D e).1.broken = false ∧
      (s.writeForKey D e).1.pending = [] := by
    intro s e h
    obtain ⟨h1, h2⟩ := hp s e h
    unfold Sink.writeForKey
    dsimp only
    rw [if_pos h1, hf _ h2]
    exact ⟨rfl, rfl, rfl⟩
  have hall : ∀ (es : List (Entry × Bool)) (s : Sink), s.broken = false →
      (Sink.putAll D s es).2 = true ∧ (Sink.putAll D s es).1.broken = false := by
    intro es
    induction es with
    | nil => intro s h; exact ⟨rfl, h⟩
    | cons x es ih =>
      intro s h
      obtain ⟨e, fl⟩ := x
      cases fl with
      | true =>
        simp only [Sink.putAll, if_true, (hw s e h).1]
        exact ih _ (hw s e h).2.1
      | false =>
        simp only [Sink.putAll, Bool.false_eq_true, if_false, (hp s e h).1, if_true]
        exact ih _ (hp s e h).2
  obtain ⟨a, b⟩ := hall es Sink.open rfl
  obtain ⟨_, h2, _⟩ := holds_putAll D es holds_open
  have hh := h2 a
  rw [List.nil_append] at hh
  have hcl : (Sink.putAll D Sink.open es).1.close D =
      (⟨es.map Prod.fst, [], false, (Sink.putAll D Sink.open es).1.calls + 1⟩, true) := by
    unfold Sink.close
    rw [hf _ b]
    simp [hs, hh.whole b]
  unfold saveTo
  dsimp only
  rw [if_pos a]
  cases c with
  | returned => simp [hcl]
  | dropped => simp [hcl]
  | missing =>
    refine ⟨a, ?_⟩
    obtain ⟨init, e, rfl⟩ := hc rfl
    obtain ⟨a1, b1⟩ := hall init Sink.open rfl
    have e1 : Sink.putAll D Sink.open (init ++ [(e, true)]) = (((Sink.putAll D Sink.open init).1.writeForKey D e).1, true) := by
      rw [putAll_append D _ _ _ a1]
      simp [Sink.putAll, (hw _ e b1).1]
    have hq := hh.whole b
    rw [e1] at hq ⊢
    rwa [(hw _ e b1).2.2, List.append_nil] at hq

/-! ## What does not hold -/

/-- Saving that drops the error of `Close`, or does not call it. For every list of entries whose last is flushed, there is a disk such
that success is reported although exactly that entry, and what was in the buffers with it, is not in the file. -/
theorem C141_dropped_loses (c : Closing) (hc : c ≠ .returned) (init : List (Entry × Bool)) (e : Entry) :
    ∃ D, (saveTo D c (init ++ [(e, true)])).2 = true ∧
      CutShort (saveTo D c (init ++ [(e, true)])).1.onDisk (init.map Prod.fst) := by
  let n := (init.filter Prod.snd).length
  refine ⟨failsAt n, ?_⟩
  obtain ⟨a, b, c1⟩ := putAll_failsAt n init Sink.open rfl (by simp [Sink.open, n])
  obtain ⟨hcut, _, _⟩ := holds_putAll (failsAt n) init holds_open
  rw [List.nil_append] at hcut
  have e1 : Sink.putAll (failsAt n) Sink.open (init ++ [(e, true)]) =
      (⟨(Sink.putAll (failsAt n) Sink.open init).1.onDisk, [], true, n + 1⟩, true) := by
    rw [putAll_append _ _ _ _ a]
    simp only [Sink.putAll, if_true, write_failsAt n _ b (by rw [c1]; simp [Sink.open, n])]
  unfold saveTo
  rw [e1]
  cases c with
  | returned => exact absurd rfl hc
  | dropped =>
    simp only [if_true]
    refine ⟨trivial, ?_⟩
    simpa [Sink.close, Sink.flush] using hcut
  | missing => exact ⟨rfl, hcut⟩

/-- The full claim fails for those who drop the error of `Close`, and for those who do not call it. -/
theorem C141_full_false (c : Closing) : C141_full c ↔ c = .returned := by
  constructor
  · intro h
    by_contra hc
    obtain ⟨D, h1, h2⟩ := C141_dropped_loses c hc [] ("a", .bytes [])
    have h3 := h D _ h1
    rw [h3] at h2
    obtain ⟨x, hx⟩ := h2
    cases hx
  · rintro rfl
    exact C141_returned

private theorem loses_short {c : Closing} (hc : c ≠ .returned) {es : List (Entry × Bool)} {full : Archive} (hm : es.map Prod.fst = full)
    {init : List (Entry × Bool)} {e : Entry} (hlast : es = init ++ [(e, true)]) :
    ∃ D, (saveTo D c es).2 = true ∧ CutShort (saveTo D c es).1.onDisk full ∧ (saveTo D c es).1.onDisk ≠ full := by
  subst hm hlast
  obtain ⟨D, h1, x, hx⟩ := C141_dropped_loses c hc init e
  refine ⟨D, h1, C141_cut_short D c _, ?_⟩
  intro h
  rw [h] at hx
  have := congrArg List.length hx
  simp at this

/-- For every decision tree and every random tree that can be saved and loaded, there is a disk such that `Save` reports success and the file
cannot be loaded. -/
theorem C141_tree_loses (S : SaveEnv) (L : LoadEnv) (info : List String → LeafInfo) (t : Tree) (cls : AttrBody)
    (save : SaveEnv → (List String → LeafInfo) → Tree → AttrBody → Res Archive) (c : Closing)
    (hsave : (save = saveID3 ∧ c = .missing) ∨ (save = saveRandomTree ∧ c = .dropped)) (full : Archive)
    (hs : save S info t cls = Res.ok full) (m : Tree × AttrBody) (hl : loadTreeFile L full = Res.ok m) (es : List (Entry × Bool))
    (hm : es.map Prod.fst = full) (init : List (Entry × Bool)) (e : Entry) (hlast : es = init ++ [(e, true)]) :
    ∃ D, (saveTo D c es).2 = true ∧ loadTreeFile L (saveTo D c es).1.onDisk = Res.err := by
  have hc : c ≠ .returned := by rcases hsave with ⟨_, rfl⟩ | ⟨_, rfl⟩ <;> decide
  obtain ⟨D, h1, h2, h3⟩ := loses_short hc hm hlast
  exact ⟨D, h1, C140_tree_lost S L info t cls save (hsave.imp And.left And.left) full _ hs m hl h2 h3⟩

/-- The same for a random forest. -/
theorem C141_forest_loses (G : GridEnv) (S : SaveEnv) (L : Nat → LoadEnv) (viaFloat : Int → Int) (features : U64) (trees : List SavedTree)
    (fitOn : Dense) (sel : GoMap Nat (List Attr)) (count : Nat) (m : LoadedBag (Tree × AttrBody)) (full : Archive)
    (hs : saveForest G S features trees fitOn sel = Res.ok full) (hl : loadForest G L viaFloat count full = Res.ok m)
    (es : List (Entry × Bool)) (hm : es.map Prod.fst = full) (init : List (Entry × Bool)) (e : Entry) (hlast : es = init ++ [(e, true)]) :
    ∃ D, (saveTo D .dropped es).2 = true ∧ loadForest G L viaFloat count (saveTo D .dropped es).1.onDisk = Res.err := by
  obtain ⟨D, h1, h2, h3⟩ := loses_short (c := .dropped) (by decide) hm hlast
  exact ⟨D, h1, C140_forest_lost G S L viaFloat features trees fitOn sel count m full _ hs hl h2 h3⟩

/-- The same for a naive Bayes classifier. -/
theorem C141_naive_bayes_loses {K : Type} (G : GridEnv) (nilVals : Bool) (viaFloat : Int → Int) (num : K → U64) (val : U64 → K)
    (fin : U64 → Bool) (nb : NB K) (fitOn : Dense) (m : NB K × Dense) (full : Archive)
    (hs : saveNBFile G nilVals num fin nb fitOn = Res.ok full) (hl : loadNBFile G viaFloat val full = Res.ok m)
    (es : List (Entry × Bool)) (hm : es.map Prod.fst = full) (init : List (Entry × Bool)) (e : Entry) (hlast : es = init ++ [(e, true)]) :
    ∃ D, (saveTo D .dropped es).2 = true ∧ loadNBFile G viaFloat val (saveTo D .dropped es).1.onDisk = Res.err := by
  obtain ⟨D, h1, h2, h3⟩ := loses_short (c := .dropped) (by decide) hm hlast
  exact ⟨D, h1, C140_naive_bayes_lost G nilVals viaFloat num val fin nb fitOn m full _ hs hl h2 h3⟩

/-- The same for a linear support vector classifier, even when the disk reports the failure at once: the error of writing the last entry is
dropped. -/
theorem C141_svc_loses {K : Type} [Field K] [LinearOrder K] (E : SvcEnv K) (m m' : SvcModel K) (full : Archive)
    (hs : saveSvcFile E m = Res.ok full) (hl : loadSvcFile E full = Res.ok m') (init : List (Entry × Bool)) (e last : Entry)
    (hm : (init ++ [(e, true)]).map Prod.fst ++ [last] = full) :
    ∃ D, ((Sink.putAll D Sink.open (init ++ [(e, true)])).1.writeForKey D last).2 = false ∧
      (saveSvcTo D (init ++ [(e, true)]) last).2 = true ∧
      loadSvcFile E (saveSvcTo D (init ++ [(e, true)]) last).1.onDisk = Res.err := by
  let n := (init.filter Prod.snd).length
  let D : DiskEnv := ⟨fun i => if i = n + 1 then some 0 else none, fun i => i == n + 1, true⟩
  obtain ⟨a, b, c⟩ := putAll_before D n (fun i hi => by simp only [D]; rw [if_neg (by omega)])
    (fun i hi => by simp only [D, beq_eq_false_iff_ne]; omega) init Sink.open rfl (by simp [Sink.open, n])
  have hcalls : (Sink.putAll D Sink.open init).1.calls = n := by rw [c]; simp [Sink.open, n]
  generalize hs0 : Sink.putAll D Sink.open init = s0 at a b hcalls
  have e1 : Sink.putAll D Sink.open (init ++ [(e, true)]) = (⟨s0.1.onDisk ++ (s0.1.pending ++ [e]), [], false, n + 1⟩, true) := by
    rw [putAll_append D _ _ _ (by rw [hs0]; exact a), hs0]
    simp [Sink.putAll, Sink.writeForKey, Sink.put, b, Sink.flush, D, hcalls]
  have e2 : ((Sink.putAll D Sink.open (init ++ [(e, true)])).1.writeForKey D last) =
      (⟨s0.1.onDisk ++ (s0.1.pending ++ [e]), [], true, n + 2⟩, false) := by
    rw [e1]
    simp [Sink.writeForKey, Sink.put, Sink.flush, D]
  have e3 : (saveSvcTo D (init ++ [(e, true)]) last).1.onDisk = s0.1.onDisk ++ (s0.1.pending ++ [e]) ∧
      (saveSvcTo D (init ++ [(e, true)]) last).2 = true := by
    unfold saveSvcTo
    dsimp only
    rw [e2, e1]
    simp [Sink.close, Sink.flush]
  have h4 := (holds_putAll D (init ++ [(e, true)]) holds_open).2.1 (by rw [e1])
  have h5 := h4.whole (by rw [e1])
  rw [e1] at h5
  simp only [List.append_nil, List.nil_append] at h5
  refine ⟨D, by rw [e2], e3.2, ?_⟩
  refine C140_svc_lost E m m' full _ hs hl ⟨[last], ?_⟩ ?_
  · rw [e3.1, h5, hm]
  · rw [e3.1, h5, ← hm]
    intro h
    have := congrArg List.length h
    simp at this

/-! ## What the user sees -/

/-- A nearest neighbours classifier: whatever the disk does, either `Save` reports success and the file loads as the complete file does, or it
reports an error, and the file loads as the complete file does or not at all. -/
theorem C141_knn_safe (D : DiskEnv) (G : GridEnv) (nilVals : Bool) (viaFloat : Int → Int) (order : List Nat) (m : KnnModel) (full : Archive)
    (_hs : saveKnnFile G nilVals order m = Res.ok full) (es : List (Entry × Bool)) (hm : es.map Prod.fst = full) :
    ((saveTo D .returned es).2 = true → loadKnnFile G viaFloat (saveTo D .returned es).1.onDisk = loadKnnFile G viaFloat full) ∧
      SameOrError (loadKnnFile G viaFloat (saveTo D .returned es).1.onDisk) (loadKnnFile G viaFloat full) := by
  subst hm
  exact ⟨fun h => by rw [C141_returned D es h], C140_knn G viaFloat _ _ (C141_cut_short D .returned es)⟩

section Examples
private def S0 : SaveEnv := ⟨true, id, fun _ => true⟩
private def L0 : LoadEnv := ⟨id, fun n => BitVec.ofInt 64 n, fun _ => 7⟩
private def t0 : Tree := .split [("a", 1), ("b", 1)] "a" ⟨⟨0, .float "x" 2⟩, 5⟩ ["0", "1"] fun k =>
  if k = "0" then .leaf [("a", 1)] "a" else .leaf [("b", 1)] "b"
private def info0 (_ : List String) : LeafInfo := ⟨1, none⟩

/-- The hypotheses of `C141_tree_loses`: a tree with a test can be saved and loaded, and its four entries can be marked as the code does. The
outcomes when the disk fails at the first, second, third time data is handed to it, and for a disk that does not fail before the fourth. -/
example : ((saveID3 S0 info0 t0 (.cat "c" ["a", "b"])).map fun full =>
      ((loadTreeFile L0 full).isOk, full.map Prod.fst,
        (List.range 4).map fun n =>
          let r := saveTo (failsAt n) .missing (full.zip [false, true, true, true])
          (r.2, r.1.onDisk.map Prod.fst, (loadTreeFile L0 r.1.onDisk).isOk))) =
    Res.ok (true, ["CLS_MANIFEST", "METADATA", "tree", "treeClassAttr"],
      [(false, [], false), (false, ["CLS_MANIFEST", "METADATA"], false), (true, ["CLS_MANIFEST", "METADATA", "tree"], false),
        (true, ["CLS_MANIFEST", "METADATA", "tree", "treeClassAttr"], true)]) := by decide +kernel

/-- The same disks, with the error of `Close` returned, and one whose buffers are full all the time. -/
example : ((List.range 5).map fun n =>
      (saveTo (failsAt n) .returned [(("a", .bytes [1]), false), (("b", .bytes [2]), true), (("c", .bytes [3]), true)]).2) =
      [false, false, false, true, true] ∧
    (saveTo ⟨fun i => if i = 4 then some 0 else none, fun _ => true, true⟩ .dropped
      [(("a", .bytes [1]), false), (("b", .bytes [2]), true), (("c", .bytes [3]), true)]).2 = true ∧
    (saveTo ⟨fun i => if i = 3 then some 0 else none, fun _ => true, true⟩ .dropped
      [(("a", .bytes [1]), false), (("b", .bytes [2]), true), (("c", .bytes [3]), true)]).2 = false := by decide +kernel
end Examples

end Golearn
