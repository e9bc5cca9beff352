import Verif.Proofs.Crash
import Verif.Proofs.SaveGrid
import Verif.Proofs.SaveNB
import Verif.Proofs.SaveSvc

/-! # What saving appends to a file -/

namespace Golearn

/-- The last entry that is appended has the name `k`. -/
def LastWrite (P : String → Prop) (k : String) (step : Writer → Res Writer) : Prop :=
  ∀ w w', step w = Res.ok w' → ∃ es p, w'.entries = w.entries ++ (es ++ [(k, p)]) ∧ ∀ e ∈ es, P e.1

section
variable {P : String → Prop} {k : String}

theorem appends_write (key : String) (p : Payload) (h : P key) : Appends P fun w => w.write key p := by
  intro w w' e
  unfold Writer.write at e
  dsimp only at e
  split at e
  · cases e
  · cases e
    exact ⟨[(key, p)], rfl, by simpa using h⟩

theorem appends_close : Appends P fun w => w.close := by
  intro w w' e
  unfold Writer.close at e
  dsimp only at e
  split at e
  · cases e
  · cases e
    exact ⟨[], by simp, by simp⟩

theorem appends_structure (G : GridEnv) (nilVals : Bool) (key : String) (d : Dense) (h : ∀ s ∈ gridKeys, P (key ++ s)) :
    Appends P fun w => w.structure G nilVals key d := by
  intro w w' e
  unfold Writer.structure at e
  dsimp only at e
  split at e
  · cases e
  · obtain ⟨es, h1, rfl⟩ := Res.map_eq_ok.1 e
    refine ⟨es, rfl, fun x hx => ?_⟩
    obtain ⟨s, hs, e⟩ := (serialize_entries h1).1 x hx
    rw [e]; exact h s hs

theorem appends_attributes (nilVals : Bool) (key : String) (attrs : List AttrBody) (h : ∀ s, P (tarPrefix key s)) :
    Appends P fun w => w.attributes nilVals key attrs := by
  intro w w' e
  unfold Writer.attributes at e
  dsimp only at e
  split at e
  · cases e
  · cases e
    refine ⟨_, writeAttributes_append _ _ _ _, fun x hx => ?_⟩
    obtain ⟨s, e⟩ := writeAttributes_names _ _ _ x hx
    rw [e]; exact h s

theorem appends_bind {f g : Writer → Res Writer} (hf : Appends P f) (hg : Appends P g) : Appends P fun w => (f w).bind g := by
  intro w w' e
  obtain ⟨w1, h1, h2⟩ := Res.bind_eq_ok.1 e
  obtain ⟨es, e1, p1⟩ := hf _ _ h1
  obtain ⟨fs, e2, p2⟩ := hg _ _ h2
  refine ⟨es ++ fs, by rw [e2, e1, List.append_assoc], fun x hx => ?_⟩
  rcases List.mem_append.1 hx with hx | hx
  · exact p1 x hx
  · exact p2 x hx

theorem appends_first {α : Type} (r : Res α) {F : α → Writer → Res Writer} (h : ∀ a, Appends P (F a)) :
    Appends P fun w => r.bind fun a => F a w := by
  intro w w' e
  obtain ⟨a, _, h2⟩ := Res.bind_eq_ok.1 e
  exact h a _ _ h2

theorem appends_each {M : Type} (save : M → Writer → String → Res Writer) (key : Nat → String) (ms : List M)
    (h : ∀ m ∈ ms, ∀ i, Appends P fun w => save m w (key i)) : ∀ i, Appends P fun w => saveEach save key ms i w := by
  induction ms with
  | nil =>
    intro i w w' e
    cases e
    exact ⟨[], by simp, by simp⟩
  | cons m ms ih =>
    intro i
    exact appends_bind (h m (by simp) i) (ih (fun m' hm => h m' (by simp [hm])) (i + 1))

theorem last_write (p : Payload) : LastWrite P k fun w => w.write k p := by
  intro w w' e
  unfold Writer.write at e
  dsimp only at e
  split at e
  · cases e
  · cases e
    exact ⟨[], p, rfl, by simp⟩

theorem last_bind {f g : Writer → Res Writer} (hf : Appends P f) (hg : LastWrite P k g) : LastWrite P k fun w => (f w).bind g := by
  intro w w' e
  obtain ⟨w1, h1, h2⟩ := Res.bind_eq_ok.1 e
  obtain ⟨es, e1, p1⟩ := hf _ _ h1
  obtain ⟨fs, p, e2, p2⟩ := hg _ _ h2
  refine ⟨es ++ fs, p, by rw [e2, e1]; simp, fun x hx => ?_⟩
  rcases List.mem_append.1 hx with hx | hx
  · exact p1 x hx
  · exact p2 x hx

theorem last_first {α : Type} (r : Res α) {F : α → Writer → Res Writer} (h : ∀ a, LastWrite P k (F a)) :
    LastWrite P k fun w => r.bind fun a => F a w := by
  intro w w' e
  obtain ⟨a, _, h2⟩ := Res.bind_eq_ok.1 e
  exact h a _ _ h2
end

/-! ## The classifiers -/

theorem appends_tree {P : String → Prop} (S : SaveEnv) (info : List String → LeafInfo) (t : Tree) (cls : AttrBody) (pre : String)
    (h : ∀ s, P (tarPrefix pre s)) : Appends P fun w => saveTree S info t cls w pre :=
  appends_first _ fun _ => appends_bind (appends_write _ _ (h _)) (appends_write _ _ (h _))

theorem appends_bag {P : String → Prop} {M : Type} (G : GridEnv) (nilVals : Bool) (save : M → Writer → String → Res Writer)
    (features : U64) (models : List M) (fitOn : Dense) (sel : GoMap Nat (List Attr)) (pre : String)
    (h : ∀ s, P (tarPrefix pre s)) (hm : ∀ m ∈ models, ∀ i, Appends P fun w => save m w (bagKey pre i)) :
    Appends P fun w => saveBag G nilVals save features models fitOn sel w pre :=
  appends_bind (appends_write _ _ (h _)) (appends_bind (appends_write _ _ (h _)) (appends_bind (appends_each _ _ _ hm 0)
    (appends_bind (appends_structure _ _ _ _ fun s _ => by rw [← tarPrefix_append]; exact h _) (appends_write _ _ (h _)))))

theorem appends_nb {P : String → Prop} {K : Type} (G : GridEnv) (nilVals : Bool) (num : K → U64) (fin : U64 → Bool) (nb : NB K)
    (fitOn : Dense) (pre : String) (h : ∀ s, P (tarPrefix pre s)) : Appends P fun w => saveNB G nilVals num fin nb fitOn w pre :=
  appends_bind (appends_structure _ _ _ _ fun s _ => by rw [← tarPrefix_append]; exact h _)
    (appends_bind (appends_attributes _ _ _ fun s => by
        rw [tarPrefix_of_ne (tarPrefix_ne_empty _ (by decide)), ← tarPrefix_append, ← tarPrefix_append]; exact h _)
      (appends_bind (appends_write _ _ (h _)) (appends_bind (appends_write _ _ (h _)) (appends_bind (appends_write _ _ (h _))
        (appends_first _ fun _ => appends_write _ _ (h _))))))

theorem appends_knn {P : String → Prop} (G : GridEnv) (nilVals : Bool) (order : List Nat) (m : KnnModel) (pre : String)
    (h : ∀ s, P (tarPrefix pre s)) : Appends P fun w => saveKnn G nilVals order m w pre := by
  intro w w' e
  unfold saveKnn at e
  dsimp only at e
  split at e
  · cases e
  · obtain ⟨es, h1, h2⟩ := Res.bind_eq_ok.1 e
    obtain ⟨fs, h3, h4⟩ := appends_close (P := fun _ => False) _ _ h2
    cases fs with
    | cons x _ => exact (h4 x (by simp)).elim
    | nil =>
      refine ⟨es, by simpa using h3, fun x hx => ?_⟩
      obtain ⟨s, hs, e⟩ := (serialize_entries h1).1 x hx
      rw [e, ← tarPrefix_append]; exact h _

section
variable {K : Type} [Field K] [LinearOrder K]

theorem appends_svc {P : String → Prop} (E : SvcEnv K) (m : SvcModel K) (pre : String) (h : ∀ s, P (tarPrefix pre s)) :
    Appends P fun w => saveSvc E m w pre := by
  refine appends_first _ fun j => appends_first _ fun ts => ?_
  intro w w' e
  obtain ⟨w1, h1, h2⟩ := Res.map_eq_ok.1 e
  obtain ⟨es, e1, p1⟩ := appends_write (P := P) _ _ (h "PARAMETERS") _ _ h1
  revert h2
  cases h3 : w1.write (tarPrefix pre "MODEL") (.bytes (E.text ts)) with
  | ok w2 =>
    rintro rfl
    obtain ⟨fs, e2, p2⟩ := appends_write (P := P) _ _ (h "MODEL") _ _ h3
    refine ⟨es ++ fs, by rw [e2, e1, List.append_assoc], fun x hx => ?_⟩
    rcases List.mem_append.1 hx with hx | hx
    · exact p1 x hx
    · exact p2 x hx
  | err => rintro rfl; exact ⟨es, e1, p1⟩
  | panic => rintro rfl; exact ⟨es, e1, p1⟩
end

theorem appends_ova {P : String → Prop} {M : Type} (G : GridEnv) (nilVals : Bool) (ord : OvaFilter → GoMap Attr Attr)
    (save : M → Writer → String → Res Writer) (m : SavedOva M) (pre : String) (h : ∀ s, P (tarPrefix pre s))
    (hm : ∀ c ∈ m.models, ∀ i, Appends P fun w => save c w (ovaClassKey pre i)) :
    Appends P fun w => saveOva G nilVals ord save m w pre := by
  have hf : ∀ i s, P (tarPrefix (ovaFilterKey pre i) s) := by
    intro i s
    rw [ovaFilterKey, tarPrefix_of_ne (tarPrefix_ne_empty _ (by rw [tarPrefix_of_ne (by decide)]; simp [String.ext_iff])), ← tarPrefix_append,
      ← tarPrefix_append]
    exact h _
  have hp : ∀ i j s, P (tarPrefix (tarPrefix (ovaFilterKey pre i) (Nat.repr j)) s) := by
    intro i j s
    rw [tarPrefix_of_ne (tarPrefix_ne_empty _ (repr_ne_empty j)), ← tarPrefix_append, ← tarPrefix_append]
    exact hf i _
  refine appends_bind (appends_structure _ _ _ _ fun s _ => by rw [← tarPrefix_append]; exact h _) (appends_bind (appends_write _ _ (h _))
    (appends_bind (appends_write _ _ (h _)) (appends_bind (appends_each _ _ _ (fun f _ i => ?_) 0) (appends_bind (appends_each _ _ _ hm 0)
      appends_close))))
  exact appends_bind (appends_write _ _ (hf i _)) (appends_bind (appends_each _ _ _ (fun p _ j =>
    appends_bind (appends_write _ _ (hp i j _)) (appends_write _ _ (hp i j _))) 0) (appends_bind (appends_write _ _ (hf i _))
      (appends_write _ _ (hf i _))))

section
variable {K : Type} [Field K] [LinearOrder K]

theorem appends_multi (G : GridEnv) (nilVals : Bool) (ord : OvaFilter → GoMap Attr Attr) (E : SvcEnv K) (m : MultiSvc K) (pre : String) :
    Appends (fun _ => True) fun w => saveMulti G nilVals ord E m w pre :=
  appends_first _ fun _ => appends_bind (appends_write _ _ trivial) (appends_first _ fun _ => appends_bind (appends_write _ _ trivial)
    (appends_ova _ _ _ _ _ _ (fun _ => trivial) fun _ _ _ => appends_svc _ _ _ fun _ => trivial))
end

/-! ## The last entry -/

theorem named_err {ar : Archive} {k : String} (h : ∀ e ∈ ar, e.1 ≠ k) : getNamedFile ar k = Res.err := by
  induction ar with
  | nil => rfl
  | cons e ar ih =>
    obtain ⟨n, v⟩ := e
    rw [getNamedFile, if_neg (h (n, v) (by simp))]
    exact ih fun q hq => h q (by simp [hq])

theorem lost_last {cut init : Archive} {k : String} {p : Payload} (h : CutShort cut (init ++ [(k, p)])) (hne : cut ≠ init ++ [(k, p)])
    (hk : ∀ e ∈ init, e.1 ≠ k) : getNamedFile cut k = Res.err := by
  obtain ⟨lost, e⟩ := h
  apply named_err
  rcases List.eq_nil_or_concat lost with rfl | ⟨l, x, rfl⟩
  · exact absurd (by simpa using e.symm) hne
  · rw [List.concat_eq_append, ← List.append_assoc] at e
    have e1 := (List.append_inj' e rfl).1
    intro q hq
    exact hk q (by rw [e1]; simp [hq])

theorem stub_eq {ar ar' : Archive} (h : readStub ar = Res.ok ar') : ar' = ar := by
  unfold readStub at h
  obtain ⟨p, _, h⟩ := Res.bind_eq_ok.1 h
  cases p with
  | json _ => cases h
  | bytes b =>
    dsimp only at h
    split at h
    · cases h
    · obtain ⟨m, _, h⟩ := Res.bind_eq_ok.1 h
      split at h
      · cases h; rfl
      · cases h

/-- A file that needs its last entry, of which something was lost. -/
theorem lost_file {α : Type} {load : Archive → Res α} {cut init : Archive} {k : String} {p : Payload} {m : α}
    (hc : CutShort cut (init ++ [(k, p)])) (hne : cut ≠ init ++ [(k, p)]) (hk : ∀ e ∈ init, e.1 ≠ k)
    (hs : SameOrError (load cut) (load (init ++ [(k, p)]))) (hl : (readStub (init ++ [(k, p)])).bind load = Res.ok m)
    (hn : ∀ r, load cut = Res.ok r → getNamedFile cut k ≠ Res.err) : (readStub cut).bind load = Res.err := by
  rcases same_stub hc load hs with h | h
  · exact h
  · rw [hl] at h
    obtain ⟨ar, h1, h2⟩ := Res.bind_eq_ok.1 h
    rw [stub_eq h1] at h2
    exact absurd (lost_last hc hne hk) (hn _ h2)

/-- A table ends with its cells. -/
theorem serialize_last {srt : List Spec → List Spec} {nilVals : Bool} {cls nrm : List Attr} {order : List Nat} {g : Grid}
    {key : String} {es : Archive} (h : serializeInstances srt nilVals cls nrm order g key = Res.ok es) :
    ∃ init p, es = init ++ [(key ++ "DATA", p)] ∧ ∀ e ∈ init, e.1 ≠ key ++ "DATA" := by
  have hn : ∀ s, s.toList ≠ "DATA".toList → key ++ s ≠ key ++ "DATA" := by
    intro s hs e
    rw [String.ext_iff, String.toList_append, String.toList_append] at e
    exact hs (List.append_cancel_left e)
  unfold serializeInstances at h
  split at h
  · cases h
  · obtain ⟨specs, _, h⟩ := Res.bind_eq_ok.1 h
    obtain ⟨data, _, rfl⟩ := Res.map_eq_ok.1 h
    refine ⟨[_, _, _, _], _, rfl, ?_⟩
    intro e he
    simp only [List.mem_cons, List.not_mem_nil, or_false] at he
    rcases he with rfl | rfl | rfl | rfl <;> exact hn _ (by decide)

/-- A table cannot be read without its cells. -/
theorem table_needs {pg : Nat} {fresh : Nat → Nat} {viaFloat : Int → Int} {srt : List Spec → List Spec}
    {chunk : Nat → Nat → Nat} {ar : Archive} {pre : String} {d : Dense}
    (h : deserializeInstances pg fresh viaFloat srt chunk ar pre = Res.ok d) : getNamedFile ar (pre ++ "DATA") ≠ Res.err := by
  intro e
  unfold deserializeInstances at h
  rw [e] at h
  obtain ⟨m, _, h⟩ := Res.bind_eq_ok.1 h
  cases m with
  | json _ => cases h
  | bytes mb =>
    dsimp only at h
    split at h
    · cases h
    obtain ⟨dims, _, h⟩ := Res.bind_eq_ok.1 h
    cases dims with
    | json _ => cases h
    | bytes db =>
      dsimp only at h
      split at h
      · cases h
      obtain ⟨_, _, h⟩ := Res.bind_eq_ok.1 h
      obtain ⟨_, _, h⟩ := Res.bind_eq_ok.1 h
      obtain ⟨cj, _, h⟩ := Res.bind_eq_ok.1 h
      cases cj with
      | bytes _ => cases h
      | json cj =>
        obtain ⟨_, _, h⟩ := Res.bind_eq_ok.1 h
        obtain ⟨nj, _, h⟩ := Res.bind_eq_ok.1 h
        cases nj with
        | bytes _ => cases h
        | json nj =>
          obtain ⟨_, _, h⟩ := Res.bind_eq_ok.1 h
          obtain ⟨_, _, h⟩ := Res.bind_eq_ok.1 h
          obtain ⟨_, _, h⟩ := Res.bind_eq_ok.1 h
          split at h
          · cases h
          · cases h

end Golearn
