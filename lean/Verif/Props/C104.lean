import Verif.Proofs.Arff
import Verif.Proofs.ChiTable

/-! # C104: reading ARFF files -/

namespace Golearn

theorem arffCount_append (lower : Char → Char) (ls rest : List Text) (h : ∀ l ∈ ls, Readable l) :
    arffCount lower true (ls ++ rest) = (recordsOf ls).length + arffCount lower true rest := by
  induction ls with
  | nil => simp [recordsOf]
  | cons l ls ih =>
    have ih := ih fun q hq => h q (by simp [hq])
    have h1 : arffCount lower true [l] = (recordsOf [l]).length := arffCount_data lower [l] (fun q hq => by
      rw [List.mem_singleton] at hq; subst hq; exact h q (by simp))
    have h2 : arffCount lower true (l :: (ls ++ rest)) = arffCount lower true [l] + arffCount lower true (ls ++ rest) := by
      cases l with
      | nil => simp [arffCount]
      | cons c cs => rw [arffCount, arffCount]; split <;> simp [arffCount, Nat.add_comm]
    have h3 : (recordsOf (l :: ls)).length = (recordsOf [l]).length + (recordsOf ls).length := by
      have : recordsOf (l :: ls) = recordsOf [l] ++ recordsOf ls := by
        unfold recordsOf
        rw [← List.filterMap_append, ← List.filter_append]
        rfl
      rw [this, List.length_append]
    rw [List.cons_append, h2, h1, ih, h3]
    omega

theorem arffRows_lines {lower : Char → Char} {text : Text} {hdr data rest : List Text} {dl : Text}
    (hlines : scanLines text = hdr ++ dl :: (data ++ rest)) (hh : ∀ l ∈ hdr, trimSpace (l.map lower) ≠ "@data".toList)
    (hd : dl.map lower = "@data".toList) (hd' : dl.head? = some '@') (hdata : ∀ l ∈ data, Readable l) :
    arffRows lower text = (recordsOf data).length + arffCount lower true rest := by
  rw [arffRows, hlines, arffCount_header lower hdr dl _ (fun l hl => trimSpace_ne (hh l hl)) hd hd', arffCount_append lower data rest hdata]

theorem arffAttribute_not_bin {lower : Char → Char} {l : Text} {b : AttrBody} (h : arffAttribute lower l = Res.ok (some b)) (n : String) :
    b ≠ .bin n := by
  rintro rfl
  unfold arffAttribute at h
  split at h
  · cases h
  · split at h
    · split at h
      · cases h
      · split at h
        · cases h
        · split at h
          · split at h <;> cases h
          · cases h
    · cases h

theorem mapRes_mem {α β : Type} {f : α → Res β} {l : List α} {m : List β} (h : mapRes f l = Res.ok m) {y : β} (hy : y ∈ m) :
    ∃ x ∈ l, f x = Res.ok y := by
  induction l generalizing m with
  | nil => cases h; cases hy
  | cons a l ih =>
    simp only [mapRes, Res.bind_eq_ok, Res.ok.injEq] at h
    obtain ⟨b, h1, m', h2, rfl⟩ := h
    rcases List.mem_cons.1 hy with rfl | hy
    · exact ⟨a, by simp, h1⟩
    · obtain ⟨x, hx, e⟩ := ih h2 hy
      exact ⟨x, by simp [hx], e⟩

/-- A file never declares a binary attribute. -/
theorem arffAttributes_not_bin {lower : Char → Char} {text : Text} {bodies : List AttrBody} (h : arffAttributes lower text = Res.ok bodies)
    (n : String) : AttrBody.bin n ∉ bodies := by
  rw [arffAttributes, Res.map_eq_ok] at h
  obtain ⟨l, h1, rfl⟩ := h
  intro hm
  obtain ⟨b, hb, e⟩ := List.mem_map.1 hm
  obtain ⟨o, ho, rfl⟩ := List.mem_filterMap.1 hb
  obtain ⟨x, _, hx⟩ := mapRes_mem h1 ho
  cases b with
  | float _ _ => cases e
  | cat _ _ => cases e
  | bin m => exact arffAttribute_not_bin hx m rfl

/-- A file whose header declares attributes of different names, whose data follows the line `@data`, and whose records fit the attributes, is read
in full: the result is the table of its records.

Missing: records with too many fields, data that starts with `@`, a marker with space around it and lines of 65536 bytes or more, for which see below;
two attributes of the same name; and a sort of the specifications that changes their order. -/
theorem C104_reads_partial (pg : Nat) (ops : ArffOps) (srt : List Spec → List Spec) (fresh : Nat → Nat) (text : Text) (bodies : List AttrBody)
    (hdr : List Text) (dl : Text) (data : List Text) (F : ArffFile ops text bodies hdr dl data [])
    (hsrt : ∀ l : List Spec, l.length = bodies.length → srt l = l) :
    ∃ d cols, parseARFF pg ops srt fresh text = Res.ok d ∧ ArffTable ops bodies (recordsOf data) d cols := by
  have hrows := arffRows_lines F.lines F.header F.marker F.marker' F.readable
  obtain ⟨d, specs, last, e, D, ms, hnd, ws, P, hl, K, S, Z, _⟩ := arff_core pg ops srt fresh text hdr data [] dl bodies F.lines F.header F.marker
    F.marker' F.readable F.attrs F.nonempty F.names F.few (arffAttributes_not_bin F.attrs) F.records hsrt _ hrows (by simp [arffCount])
  simp only [arffCount, Nat.add_zero] at D
  have hsz : ∀ (j : Nat) (a : Attr), (withPtrs fresh 0 bodies)[j]? = some a → ∃ s : Spec, specs[j]? = some s ∧ s.attr = a := by
    intro j a hj
    rw [← ms, List.getElem?_map, Option.map_eq_some_iff] at hj
    exact hj
  refine ⟨d, withPtrs fresh 0 bodies, by rw [e]; rfl, ?_, P, withPtrs_body fresh 0 bodies, ?_, ?_, ?_⟩
  · refine Prod.ext ?_ D.presents.rows
    show d.allAttributes.length = _
    rw [P.length_eq, ← withPtrs_body fresh 0 bodies, List.length_map]
    rw [withPtrs_body]
  · intro a
    rw [K, hl, List.mem_singleton, Option.some.injEq]
    exact eq_comm
  · intro i j a r v hj hi hv
    obtain ⟨s, hs, rfl⟩ := hsz j a hj
    obtain ⟨hs1, hs2⟩ := ws s (List.mem_of_getElem? hs)
    obtain ⟨hilt, hir⟩ := List.getElem?_eq_some_iff.1 hi
    obtain ⟨s', h1, _, h3⟩ := D.presents.read s.attr hs1
    refine ⟨s', _, h1, h3 i hilt, ?_⟩
    exact S i hilt (s, v) (List.mem_iff_getElem?.2 ⟨j, by rw [List.getElem?_zip_eq_some]; exact ⟨hs, by rw [hir]; exact hv⟩⟩)
  · intro i j a r hj hi hv
    obtain ⟨s, hs, rfl⟩ := hsz j a hj
    obtain ⟨hs1, hs2⟩ := ws s (List.mem_of_getElem? hs)
    obtain ⟨hilt, hir⟩ := List.getElem?_eq_some_iff.1 hi
    obtain ⟨s', h1, _, h3⟩ := D.presents.read s.attr hs1
    refine ⟨s', h1, ?_⟩
    rw [show d.get s' i = _ from h3 i hilt, Z i hilt s.attr hs1]
    intro hm
    rw [hir, List.map_take] at hm
    obtain ⟨k, hk⟩ := List.mem_iff_getElem?.1 hm
    rw [List.getElem?_take] at hk
    split at hk
    · rename_i hkr
      have hjj : (specs.map Spec.attr)[j]? = some s.attr := by rw [List.getElem?_map, hs]; rfl
      have : k = j := (List.getElem?_inj (List.getElem?_eq_some_iff.1 hk).1 hnd).1 (by rw [hk, hjj])
      subst this
      rw [List.getElem?_eq_getElem hkr] at hv
      cases hv
    · cases hk

theorem arffRecord_append (ops : ArffOps) (row : Nat) (more vs : List Text) : ∀ (d d' : Dense) (specs : List Spec),
    arffRecord ops row d specs vs = (d', .done) → arffRecord ops row d specs (vs ++ more) = arffRecord ops row d' (specs.drop vs.length) more := by
  induction vs with
  | nil =>
    intro d d' specs h
    have : d = d' := by cases specs <;> exact congrArg Prod.fst h
    rw [this]; rfl
  | cons v vs ih =>
    intro d d' specs h
    cases specs with
    | nil => cases h
    | cons s ss =>
      rw [arffRecord] at h
      rw [List.cons_append, arffRecord]
      split at h
      · rename_i b hb
        split at h
        · rename_i d1 hd1
          exact ih d1 d' ss h
        · have h2 := congrArg Prod.snd h
          unfold setStop at h2
          split at h2
          · cases h2
          · split at h2 <;> cases h2
      · cases h

theorem findValue_none {vs : List String} {s : String} (h : s ∉ vs) (i : Nat) : findValue vs s i = none := by
  induction vs generalizing i with
  | nil => rfl
  | cons v vs ih =>
    unfold findValue
    rw [List.mem_cons, not_or] at h
    rw [if_neg (by simpa using Ne.symm h.1), ih h.2]

theorem arffValue_unfit {ops : ArffOps} {a : Attr} {t : String} (hf : ¬ FieldFits ops a.body t) (hb : a.isBin = false) :
    arffValue ops a t = Res.err := by
  obtain ⟨ptr, body⟩ := a
  cases body with
  | float n k =>
    have : ops.parse t = none := by simpa [FieldFits] using hf
    simp [arffValue, this]
  | bin n => cases hb
  | cat n vs => simp [arffValue, catGetSysVal, findValue_none (show t ∉ vs from hf)]

/-- A field that says nothing in its column is an error: no number is made of a text that is none, and no value is added to those of the header. -/
theorem C104_bad_field (pg : Nat) (ops : ArffOps) (srt : List Spec → List Spec) (fresh : Nat → Nat) (text : Text) (bodies : List AttrBody)
    (hdr : List Text) (dl : Text) (data : List Text) (line : Text) (post : List Text)
    (F : ArffFile ops text bodies hdr dl data (line :: post)) (hsrt : ∀ l : List Spec, l.length = bodies.length → srt l = l)
    (hline : isDataLine line = true) (good more : List Text) (bad : Text) (hrec : csvLine line = Res.ok (some (good ++ bad :: more)))
    (hgood : ∀ (j : Nat) b v, bodies[j]? = some b → good[j]? = some v → FieldFits ops b (String.ofList (trimSpace v)))
    (b : AttrBody) (hb : bodies[good.length]? = some b) (hbad : ¬ FieldFits ops b (String.ofList (trimSpace bad))) :
    parseARFF pg ops srt fresh text = Res.err := by
  have hrows := arffRows_lines F.lines F.header F.marker F.marker' F.readable
  have hc : arffCount ops.lower true (line :: post) = arffCount ops.lower true post + 1 := by
    cases line with
    | nil => cases hline
    | cons c cs =>
      rw [arffCount, if_neg]
      simp [isDataLine] at hline
      simp [hline]
  obtain ⟨d, specs, last, e, D, ms, hnd, ws, P, hl, K, S, Z, _⟩ := arff_core pg ops srt fresh text hdr data (line :: post) dl bodies F.lines
    F.header F.marker F.marker' F.readable F.attrs F.nonempty F.names F.few (arffAttributes_not_bin F.attrs) F.records hsrt _ hrows (by omega)
  have hcb := withPtrs_body fresh 0 bodies
  rw [← ms] at hcb
  have hbody : ∀ (j : Nat) (s : Spec), specs[j]? = some s → bodies[j]? = some s.attr.body := by
    intro j s hs
    rw [← hcb, List.getElem?_map, List.getElem?_map, hs]; rfl
  have hlen : specs.length = bodies.length := by rw [← hcb]; simp
  obtain ⟨hglt, _⟩ := List.getElem?_eq_some_iff.1 hb
  obtain ⟨d', e1, D', -⟩ := arffRecord_spec ops (row := (recordsOf data).length) (by rw [hc]; omega) good d specs D ws hnd (by
    intro p hp
    obtain ⟨j, hj⟩ := List.mem_iff_getElem?.1 hp
    rw [List.getElem?_zip_eq_some] at hj
    have hb := hbody j _ hj.1
    exact ⟨hgood j _ _ hb hj.2, fun m vs e => F.few m vs (e ▸ List.mem_of_getElem? hb)⟩)
  rw [if_pos (by omega)] at e1
  have e2 := arffRecord_append ops _ (bad :: more) good d d' specs e1
  have hsg : good.length < specs.length := by omega
  rw [List.drop_eq_getElem_cons hsg, arffRecord] at e2
  have hbb : bodies[good.length]? = some specs[good.length].attr.body := hbody _ _ (List.getElem?_eq_getElem hsg)
  have hbin : specs[good.length].attr.isBin = false := by
    have := arffAttributes_not_bin F.attrs
    have hm := List.mem_of_getElem? hbb
    revert hm
    generalize specs[good.length].attr = a
    obtain ⟨p, b⟩ := a
    cases b with
    | bin m => exact fun h => absurd h (this m)
    | _ => exact fun _ => rfl
  rw [hb, Option.some.injEq] at hbb
  rw [arffValue_unfit (hbb ▸ hbad) hbin] at e2
  simp only at e2
  have hpc : line.head? ≠ some '%' := by
    intro h
    cases line with
    | nil => cases h
    | cons c cs => simp_all [isDataLine]
  rw [e, arffRead, if_neg hpc, if_pos rfl, hrec]
  simp only [e2]
  rfl

/-- A record with more fields than there are attributes ends the reading without an error: the result has a row for each line of data, but those that
follow the record are zero, whatever the lines say. -/
theorem C104_long_record (pg : Nat) (ops : ArffOps) (srt : List Spec → List Spec) (fresh : Nat → Nat) (text : Text) (bodies : List AttrBody)
    (hdr : List Text) (dl : Text) (data : List Text) (line : Text) (post : List Text)
    (F : ArffFile ops text bodies hdr dl data (line :: post)) (hsrt : ∀ l : List Spec, l.length = bodies.length → srt l = l)
    (hline : isDataLine line = true) (r : List Text) (hrec : csvLine line = Res.ok (some r)) (hlong : bodies.length < r.length)
    (hfit : ∀ (j : Nat) b v, bodies[j]? = some b → r[j]? = some v → FieldFits ops b (String.ofList (trimSpace v))) :
    ∃ d, parseARFF pg ops srt fresh text = Res.ok d ∧
      d.size = (bodies.length, (recordsOf data).length + 1 + ((post.filter isDataLine).length)) ∧
      ∀ a ∈ d.allAttributes, ∃ s, d.getAttribute a = Res.ok s ∧ ∀ i, (recordsOf data).length < i → i < d.size.2 → d.get s i = Res.ok (packU64 0) := by
  have hrows := arffRows_lines F.lines F.header F.marker F.marker' F.readable
  have hc : arffCount ops.lower true (line :: post) = arffCount ops.lower true post + 1 := by
    cases line with
    | nil => cases hline
    | cons c cs =>
      rw [arffCount, if_neg]
      simp [isDataLine] at hline
      simp [hline]
  have hp : arffCount ops.lower true post = (post.filter isDataLine).length := by
    clear F hrows hc
    induction post with
    | nil => rfl
    | cons l ls ih =>
      cases l with
      | nil => rw [arffCount, ih]; simp [isDataLine]
      | cons c cs =>
        rw [arffCount, ih]
        by_cases h : c = '@' ∨ c = '%'
        · rw [if_pos h, List.filter_cons_of_neg]
          rcases h with h | h <;> simp [isDataLine, h]
        · rw [if_neg h, List.filter_cons_of_pos]
          · rfl
          · rw [not_or] at h; simp [isDataLine, h]
  obtain ⟨d, specs, last, e, D, ms, hnd, ws, P, hl, K, S, Z, Z'⟩ := arff_core pg ops srt fresh text hdr data (line :: post) dl bodies F.lines
    F.header F.marker F.marker' F.readable F.attrs F.nonempty F.names F.few (arffAttributes_not_bin F.attrs) F.records hsrt _ hrows (by omega)
  have hcb := withPtrs_body fresh 0 bodies
  rw [← ms] at hcb
  have hbody : ∀ (j : Nat) (s : Spec), specs[j]? = some s → bodies[j]? = some s.attr.body := by
    intro j s hs
    rw [← hcb, List.getElem?_map, List.getElem?_map, hs]; rfl
  have hlen : specs.length = bodies.length := by rw [← hcb]; simp
  obtain ⟨d', e1, D', A, C, L, S', U⟩ := arffRecord_spec ops (row := (recordsOf data).length) (by rw [hc]; omega) r d specs D ws hnd (by
    intro p hp
    obtain ⟨j, hj⟩ := List.mem_iff_getElem?.1 hp
    rw [List.getElem?_zip_eq_some] at hj
    have hb := hbody j _ hj.1
    exact ⟨hfit j _ _ hb hj.2, fun m vs e => F.few m vs (e ▸ List.mem_of_getElem? hb)⟩)
  rw [if_neg (by omega)] at e1
  have hpc : line.head? ≠ some '%' := by
    intro h
    cases line with
    | nil => cases h
    | cons c cs => simp_all [isDataLine]
  have hsz : d'.size = (bodies.length, (recordsOf data).length + 1 + ((post.filter isDataLine).length)) := by
    refine Prod.ext ?_ ?_
    · show d'.allAttributes.length = _
      rw [A, P.length_eq, ← ms, List.length_map, hlen]
    · have := D'.presents.rows
      rw [hc, hp] at this
      rw [show d'.size.2 = _ from this]
      show _ = (recordsOf data).length + 1 + _
      omega
  refine ⟨d', ?_, hsz, ?_⟩
  · rw [e, arffRead, if_neg hpc, if_pos rfl, hrec]
    simp only [e1]
    rfl
  · intro a ha
    obtain ⟨s, h1, _, h3⟩ := D'.presents.read a ha
    refine ⟨s, h1, ?_⟩
    intro i hi hi'
    rw [hsz] at hi'
    simp only at hi'
    have hi2 : i < (recordsOf data).length + arffCount ops.lower true (line :: post) := by rw [hc, hp]; omega
    rw [show d'.get s i = _ from h3 i hi2, U a (A ▸ ha) i hi2 (.inl (by omega)), Z' a (A ▸ ha) i hi2 (by omega)]

/-- Whatever the text, when the reading succeeds the result has a row for each line after `@data` that is neither empty nor starts with `@` or
`%`. -/
theorem C104_rows (pg : Nat) (ops : ArffOps) (srt : List Spec → List Spec) (fresh : Nat → Nat) (text : Text) (hdr ls : List Text) (dl : Text)
    (hlines : scanLines text = hdr ++ dl :: ls) (hh : ∀ l ∈ hdr, l.map ops.lower ≠ "@data".toList) (hd : dl.map ops.lower = "@data".toList)
    (hd' : dl.head? = some '@') (d : Dense) (h : parseARFF pg ops srt fresh text = Res.ok d) : d.size.2 = (ls.filter isDataLine).length := by
  have hrec : ∀ (row : Nat) (vs : List Text) (d : Dense) (specs : List Spec), (arffRecord ops row d specs vs).1.maxRow = d.maxRow := by
    intro row vs
    induction vs with
    | nil => intro d specs; cases specs <;> rfl
    | cons v vs ih =>
      intro d specs
      cases specs with
      | nil => rfl
      | cons s ss =>
        rw [arffRecord]
        split
        · split
          · rename_i h
            rw [ih, set_maxRow h]
          · rfl
        · rfl
  have hread : ∀ (specs : List Spec) (ls : List Text) (reading : Bool) (row : Nat) (d : Dense),
      (arffRead ops specs reading row d ls).1.maxRow = d.maxRow := by
    intro specs ls
    induction ls with
    | nil => intro _ _ _; rfl
    | cons l ls ih =>
      intro reading row d
      rw [arffRead]
      split
      · exact ih _ _ _
      · split
        · split
          · exact ih _ _ _
          · rename_i r _
            have := hrec row r d specs
            split
            · rename_i d' e
              rw [ih, ← this, e]
            · exact this
          · rfl
        · exact ih _ _ _
  have hcount : ∀ ls : List Text, arffCount ops.lower true ls = (ls.filter isDataLine).length := by
    intro post
    induction post with
    | nil => rfl
    | cons l ls ih =>
      cases l with
      | nil => rw [arffCount, ih]; simp [isDataLine]
      | cons c cs =>
        rw [arffCount, ih]
        by_cases h : c = '@' ∨ c = '%'
        · rw [if_pos h, List.filter_cons_of_neg]
          rcases h with h | h <;> simp [isDataLine, h]
        · rw [if_neg h, List.filter_cons_of_pos]
          · rfl
          · rw [not_or] at h; simp [isDataLine, h]
  have hr : arffRows ops.lower text = (ls.filter isDataLine).length := by
    rw [arffRows, hlines, arffCount_header ops.lower hdr dl ls hh hd hd', hcount]
  rw [parseARFF, Res.bind_eq_ok] at h
  obtain ⟨bodies, _, h⟩ := h
  simp only [Res.bind_eq_ok] at h
  obtain ⟨d0, h0, h⟩ := h
  have hm0 : d0.maxRow = 0 := addAll_maxRow h0
  split at h
  · cases h
  · rename_i a _
    rw [hr] at h
    have key : ∀ d1 : Dense, d1.maxRow = 0 →
        arffFinish (arffBuild ops srt (withPtrs fresh 0 bodies) (d1.extend (ls.filter isDataLine).length) text) = Res.ok d →
        d.maxRow = (ls.filter isDataLine).length := by
      intro d1 hm1 h
      have hb : (arffBuild ops srt (withPtrs fresh 0 bodies) (d1.extend (ls.filter isDataLine).length) text).1.maxRow =
          (ls.filter isDataLine).length := by
        unfold arffBuild
        split
        · rw [hread]
          show d1.maxRow + _ = _
          omega
        · show d1.maxRow + _ = _
          omega
      generalize arffBuild ops srt (withPtrs fresh 0 bodies) (d1.extend (ls.filter isDataLine).length) text = q at h hb
      obtain ⟨d2, st⟩ := q
      cases st with
      | done => cases h; exact hb
      | err => cases h
      | runtime => cases h; exact hb
      | panic => cases h
    refine key _ ?_ h
    split
    · rename_i d2 e2
      rw [Dense.addClassAttribute, Res.map_eq_ok] at e2
      obtain ⟨_, _, rfl⟩ := e2
      exact hm0
    · exact hm0

theorem splitLines_append (post : Text) (pre : Text) (h : pre = [] ∨ pre.getLast? = some '\n') :
    splitLines (pre ++ post) = splitLines pre ++ splitLines post := by
  induction pre with
  | nil => rfl
  | cons c cs ih =>
    have h' : cs = [] ∨ cs.getLast? = some '\n' := by
      rcases h with h | h
      · cases h
      · by_cases e : cs = []
        · exact .inl e
        · right; rw [List.getLast?_cons_of_ne_nil e] at h; exact h
    rw [List.cons_append, splitLines, splitLines, ih h']
    by_cases hc : c = '\n'
    · rw [if_pos hc, if_pos hc, List.cons_append]
    · rw [if_neg hc, if_neg hc]
      have hne : cs ≠ [] := by
        rintro rfl
        rcases h with h | h
        · cases h
        · exact hc (by simpa using h)
      have : splitLines cs ≠ [] := by
        cases cs with
        | nil => exact absurd rfl hne
        | cons x xs =>
          unfold splitLines
          split
          · simp
          · split <;> simp
      obtain ⟨l, ls, e⟩ := List.exists_cons_of_ne_nil this
      rw [e]
      rfl

theorem splitLines_line (l post : Text) (h : '\n' ∉ l) : splitLines (l ++ '\n' :: post) = l :: splitLines post := by
  induction l with
  | nil => rw [List.nil_append, splitLines, if_pos rfl]
  | cons c cs ih =>
    rw [List.mem_cons, not_or] at h
    rw [List.cons_append, splitLines, if_neg (Ne.symm h.1), ih h.2]

/-- A line of 65536 bytes or more ends the file: whatever follows, and the line itself, might as well not be there, and there is no error on
account of it. -/
theorem C104_long_line (pg : Nat) (ops : ArffOps) (srt : List Spec → List Spec) (fresh : Nat → Nat) (pre long post : Text)
    (hpre : pre = [] ∨ pre.getLast? = some '\n') (hline : '\n' ∉ long) (hlong : 65536 ≤ byteLen long) :
    parseARFF pg ops srt fresh (pre ++ (long ++ '\n' :: post)) = parseARFF pg ops srt fresh pre := by
  have h : scanLines (pre ++ (long ++ '\n' :: post)) = scanLines pre := by
    unfold scanLines
    congr 1
    rw [splitLines_append _ _ hpre, splitLines_line _ _ hline, List.takeWhile_append]
    split
    · rw [List.takeWhile_cons_of_neg (by simpa using hlong), List.append_nil]
      rename_i h
      exact (List.IsPrefix.eq_of_length (List.takeWhile_prefix _) h).symm
    · rfl
  simp only [parseARFF, arffAttributes, estimatePrecision, arffRows, arffBuild, h]

/-- Reading the data of a file into a table that is there already, whatever the kinds of its attributes (a file never declares a binary attribute, but
such a table may have them): the field of record `i` for the attribute `attrs[j]` is what row `i` of that column says afterwards, and nothing else in the
table changes. -/
theorem C104_fills (ops : ArffOps) (srt : List Spec → List Spec) (attrs : List Attr) {rows : Nat} (d : Dense) (text : Text) (hdr data : List Text)
    (dl : Text) (D : DenseOK rows d) (hsub : ∀ a ∈ attrs, a ∈ d.allAttributes) (hnd : attrs.Nodup)
    (hsrt : ∀ l : List Spec, l.length = attrs.length → srt l = l) (hlines : scanLines text = hdr ++ dl :: data)
    (hhdr : ∀ l ∈ hdr, trimSpace (l.map ops.lower) ≠ "@data".toList) (hdl : dl.map ops.lower = "@data".toList) (hdl' : dl.head? = some '@')
    (hread : ∀ l ∈ data, Readable l) (hroom : (recordsOf data).length ≤ rows) (hfew : ∀ a ∈ attrs, ∀ n vs, a.body = .cat n vs → vs.length < 2 ^ 64)
    (hfits : ∀ r ∈ recordsOf data, r.length ≤ attrs.length ∧
      ∀ (j : Nat) a v, attrs[j]? = some a → r[j]? = some v → FieldFits ops a.body (String.ofList (trimSpace v))) :
    ∃ d', arffBuild ops srt attrs d text = (d', .done) ∧ d'.allAttributes = d.allAttributes ∧ d'.allClassAttributes = d.allClassAttributes ∧
      d'.size = d.size ∧
      (∀ (i j : Nat) a (r : List Text) v, attrs[j]? = some a → (recordsOf data)[i]? = some r → r[j]? = some v →
        ∃ s c, d'.getAttribute a = Res.ok s ∧ d'.get s i = Res.ok c ∧ FieldSays ops a (String.ofList (trimSpace v)) c) ∧
      (∀ a ∈ d.allAttributes, ∀ i, i < rows →
        (∀ (j : Nat) r v, attrs[j]? = some a → (recordsOf data)[i]? = some r → r[j]? ≠ some v) →
        ∃ s c, d.getAttribute a = Res.ok s ∧ d'.getAttribute a = Res.ok s ∧ d.get s i = Res.ok c ∧ d'.get s i = Res.ok c) := by
  obtain ⟨specs, hsp, hat, hs⟩ := resolveUnsorted_attrs (g := Grid.dense d) D.presents hsub
  have hlen : specs.length = attrs.length := by rw [← hat, List.length_map]
  have hres : (Grid.dense d).resolve srt attrs = Res.ok specs := by
    rw [Grid.resolve, hsp, Res.map_ok, hsrt _ hlen]
  have hsz : ∀ (j : Nat) (a : Attr), attrs[j]? = some a → ∃ s : Spec, specs[j]? = some s ∧ s.attr = a := by
    intro j a hj
    rw [← hat, List.getElem?_map, Option.map_eq_some_iff] at hj
    exact hj
  obtain ⟨d', e, D', A, C, L, S, Z, U⟩ := arffRead_data ops (rows := rows) specs (hat ▸ hnd) [] data hread 0 d (by omega) D hs (by
    intro r hr
    obtain ⟨h1, h2⟩ := hfits r hr
    refine ⟨by omega, fun p hp => ?_⟩
    obtain ⟨j, hj⟩ := List.mem_iff_getElem?.1 hp
    rw [List.getElem?_zip_eq_some] at hj
    have hj1 : attrs[j]? = some p.1.attr := by rw [← hat, List.getElem?_map, hj.1]; rfl
    exact ⟨h2 j _ _ hj1 hj.2, hfew _ (List.mem_of_getElem? hj1)⟩)
  have hb : arffBuild ops srt attrs d text = (d', .done) := by
    rw [arffBuild, hres]
    simp only
    rw [hlines, arffRead_header ops specs d hdr dl data hhdr hdl hdl']
    rw [List.append_nil] at e
    rw [e, arffRead]
  refine ⟨d', hb, A, ?_, ?_, ?_, ?_⟩
  · unfold Dense.allClassAttributes
    rw [C]
  · refine Prod.ext (by show d'.allAttributes.length = d.allAttributes.length; rw [A]) ?_
    exact D'.presents.rows.trans D.presents.rows.symm
  · intro i j a r v hj hi hv
    obtain ⟨s, hs', rfl⟩ := hsz j a hj
    obtain ⟨hilt, hir⟩ := List.getElem?_eq_some_iff.1 hi
    obtain ⟨s', h1, _, h3⟩ := D'.presents.read s.attr (show _ ∈ d'.allAttributes by rw [A]; exact hsub _ (List.mem_of_getElem? hj))
    refine ⟨s', _, h1, h3 i (by omega), ?_⟩
    have := S i hilt (s, v) (List.mem_iff_getElem?.2 ⟨j, by rw [List.getElem?_zip_eq_some]; exact ⟨hs', by rw [hir]; exact hv⟩⟩)
    rwa [Nat.zero_add] at this
  · intro a ha i hi hno
    obtain ⟨s, h1, _, h3⟩ := D.presents.read a ha
    obtain ⟨s', h1', _, h3'⟩ := D'.presents.read a (show _ ∈ d'.allAttributes by rw [A]; exact ha)
    have hss : s' = s := Res.ok.inj (h1'.symm.trans ((L a).trans h1))
    subst hss
    refine ⟨s', _, h1, h1', h3 i hi, ?_⟩
    rw [show d'.get s' i = _ from h3' i hi]
    congr 1
    by_cases hlt : i < (recordsOf data).length
    · have := Z i hlt a ha ?_
      · rwa [Nat.zero_add] at this
      · intro hm
        rw [List.map_take, hat] at hm
        obtain ⟨j, hj⟩ := List.mem_iff_getElem?.1 hm
        rw [List.getElem?_take] at hj
        split at hj
        · rename_i hjl
          exact hno j _ _ hj (List.getElem?_eq_getElem hlt) (List.getElem?_eq_getElem hjl)
        · cases hj
    · exact U a ha i hi (.inr (by omega))

/-! ## What does not hold, and cases -/

/-- The full claim: a text whose lines have the marker `@data` is read as the table of all records that follow it, or else there is an error. -/
def C104_claim : Prop :=
  ∀ (pg : Nat) (ops : ArffOps) (fresh : Nat → Nat) (text : Text) (hdr ls : List Text) (dl : Text),
    splitLines text = hdr ++ dl :: ls → (∀ l ∈ hdr, trimSpace (l.map ops.lower) ≠ "@data".toList) → trimSpace (dl.map ops.lower) = "@data".toList →
    parseARFF pg ops id fresh text = Res.err ∨
    ∃ d bodies cols, parseARFF pg ops id fresh text = Res.ok d ∧
      ArffTable ops bodies ((ls.filter fun l => l.head? != some '%').filterMap recordOf) d cols

/-- Lower case for the letters of English. -/
def asciiLower (c : Char) : Char := if 'A' ≤ c ∧ c ≤ 'Z' then Char.ofNat (c.toNat + 32) else c

/-- A few numbers. -/
def fewNumbers (s : String) : Option U64 := if s = "1.5" then some 15 else if s = "2" then some 20 else if s = "3" then some 30 else none

def sampleOps : ArffOps := { lower := asciiLower, parse := fewNumbers }

/-- A value that starts with `@` in the first column is declared, but the row is not counted, and reading it panics. -/
theorem C104_at_panics : parseARFF 4096 sampleOps id id "@relation r\n@attribute c {@a, b}\n@data\nb\n@a\n".toList = Res.panic := by
  decide +kernel

/-- A space after the marker: no rows are counted, and reading the first panics. -/
theorem C104_marker_panics : parseARFF 4096 sampleOps id id "@relation r\n@attribute h real\n@data \n1.5\n".toList = Res.panic := by
  decide +kernel

/-- The full claim does not hold. -/
theorem C104_refuted : ¬ C104_claim := by
  intro h
  have e := C104_marker_panics
  have := h 4096 sampleOps id "@relation r\n@attribute h real\n@data \n1.5\n".toList ["@relation r".toList, "@attribute h real".toList] ["1.5".toList]
    "@data ".toList (by decide +kernel) (by decide +kernel) (by decide +kernel)
  rw [e] at this
  rcases this with h | ⟨_, _, _, h, _⟩ <;> cases h

/-- A record that is too long: the record that follows it is lost, and there is no error. The second row should hold 3. -/
theorem C104_long_record_loses : (parseARFF 4096 sampleOps id id "@relation r\n@attribute h real\n@data\n1.5,2\n3\n".toList).map
    (fun d => (d.size, (d.getAttribute ⟨0, .float "h" 1⟩).bind fun s => d.get s 1)) = Res.ok ((1, 2), Res.ok (packU64 0)) := by
  decide +kernel

/-- A value that starts with `%` in the first column makes the row a comment. -/
theorem C104_comment_loses : (parseARFF 4096 sampleOps id id "@relation r\n@attribute c {%a, b}\n@data\nb\n%a\n".toList).map (fun d => d.size) =
    Res.ok (1, 1) := by decide +kernel

/-- A file to read. -/
def sampleArff : Text :=
  "@relation r\n\n@ATTRIBUTE h real\n@attribute c {yes, no}\n\n@DATA\n1.5,no\r\n% comment\n\n 2 ,\"yes\"\n3\n".toList

def sampleHeader : List Text := ["@relation r", "", "@ATTRIBUTE h real", "@attribute c {yes, no}", ""].map String.toList

def sampleData : List Text := ["1.5,no", "% comment", "", " 2 ,\"yes\"", "3"].map String.toList

theorem readable_of {ls : List Text} (h : ∀ l ∈ ls, l.head? ≠ some '@' ∧ (isDataLine l = true → (recordOf l).isSome = true)) :
    ∀ l ∈ ls, Readable l := by
  intro l hl
  obtain ⟨h1, h2⟩ := h l hl
  refine ⟨h1, fun hd => ?_⟩
  have := h2 hd
  unfold recordOf at this
  split at this
  · exact ⟨_, by assumption⟩
  · cases this

instance (ops : ArffOps) (b : AttrBody) (t : String) : Decidable (FieldFits ops b t) := by
  unfold FieldFits
  cases b <;> infer_instance

theorem fits_of {ops : ArffOps} {bodies : List AttrBody} {r : List Text}
    (h : ∀ p ∈ bodies.zip r, FieldFits ops p.1 (String.ofList (trimSpace p.2))) (j : Nat) (b : AttrBody) (v : Text) (hb : bodies[j]? = some b)
    (hv : r[j]? = some v) : FieldFits ops b (String.ofList (trimSpace v)) :=
  h (b, v) (List.mem_iff_getElem?.2 ⟨j, by rw [List.getElem?_zip_eq_some]; exact ⟨hb, hv⟩⟩)

def sampleBodies : List AttrBody := [.float "h" 1, .cat "c" ["yes", "no"]]


theorem sampleFile : ArffFile sampleOps sampleArff sampleBodies sampleHeader "@DATA".toList sampleData [] where
  lines := by decide +kernel
  header := by decide +kernel
  marker := by decide +kernel
  marker' := by decide +kernel
  readable := readable_of (by decide +kernel)
  attrs := by decide +kernel
  nonempty := by decide
  names := by decide
  few := by
    intro n vs h
    simp only [sampleBodies, List.mem_cons, List.not_mem_nil, or_false, reduceCtorEq, false_or, AttrBody.cat.injEq] at h
    rw [h.2]
    decide
  records := fun r hr => by
    have : ∀ r ∈ recordsOf sampleData, r.length ≤ sampleBodies.length ∧
      ∀ p ∈ sampleBodies.zip r, FieldFits sampleOps p.1 (String.ofList (trimSpace p.2)) := by decide +kernel
    exact ⟨(this r hr).1, fits_of (this r hr).2⟩

/-- The sample file meets the hypotheses; it has three records. -/
example : ∃ d cols, parseARFF 4096 sampleOps id id sampleArff = Res.ok d ∧ ArffTable sampleOps sampleBodies (recordsOf sampleData) d cols :=
  C104_reads_partial 4096 sampleOps id id sampleArff sampleBodies sampleHeader "@DATA".toList sampleData sampleFile fun _ _ => rfl

example : (recordsOf sampleData).map (fun r => r.map fun t => String.ofList (trimSpace t)) = [["1.5", "no"], ["2", "yes"], ["3"]] := by
  decide +kernel

example : (parseARFF 4096 sampleOps id id sampleArff).map (fun d => (d.size, (d.getAttribute ⟨0, .float "h" 1⟩).bind fun s => d.get s 1,
    (d.getAttribute ⟨1, .cat "c" ["yes", "no"]⟩).bind fun s => d.get s 0)) = Res.ok ((2, 3), Res.ok (packU64 20), Res.ok (packU64 1)) := by
  decide +kernel

/-- The sample file with further lines. -/
theorem sampleFile_more (line : Text) (post : List Text) (more : Text)
    (hlines : scanLines (sampleArff ++ more) = sampleHeader ++ "@DATA".toList :: (sampleData ++ line :: post))
    (hattrs : arffAttributes asciiLower (sampleArff ++ more) = Res.ok sampleBodies) :
    ArffFile sampleOps (sampleArff ++ more) sampleBodies sampleHeader "@DATA".toList sampleData (line :: post) :=
  { sampleFile with lines := hlines, attrs := hattrs }

/-- A value that the header does not have. -/
example : parseARFF 4096 sampleOps id id (sampleArff ++ "2,maybe\n".toList) = Res.err :=
  C104_bad_field 4096 sampleOps id id _ sampleBodies sampleHeader "@DATA".toList sampleData "2,maybe".toList []
    (sampleFile_more _ _ _ (by decide +kernel) (by decide +kernel)) (fun _ _ => rfl) (by decide +kernel) ["2".toList] [] "maybe".toList
    (by decide +kernel) (fits_of (by decide +kernel)) (.cat "c" ["yes", "no"]) (by decide) (by decide +kernel)

/-- A record that is too long, and one after it. -/
example : ∃ d, parseARFF 4096 sampleOps id id (sampleArff ++ "2,no,3\n3,no\n".toList) = Res.ok d ∧ d.size = (2, 5) ∧
    ∀ a ∈ d.allAttributes, ∃ s, d.getAttribute a = Res.ok s ∧ ∀ i, 3 < i → i < d.size.2 → d.get s i = Res.ok (packU64 0) :=
  C104_long_record 4096 sampleOps id id _ sampleBodies sampleHeader "@DATA".toList sampleData "2,no,3".toList ["3,no".toList]
    (sampleFile_more _ _ _ (by decide +kernel) (by decide +kernel)) (fun _ _ => rfl) (by decide +kernel) ["2".toList, "no".toList, "3".toList]
    (by decide +kernel) (by decide) (fits_of (by decide +kernel))

example (d : Dense) (h : parseARFF 4096 sampleOps id id sampleArff = Res.ok d) : d.size.2 = 3 :=
  C104_rows 4096 sampleOps id id sampleArff sampleHeader sampleData "@DATA".toList (by decide +kernel) (by decide +kernel) (by decide +kernel)
    (by decide +kernel) d h

/-- A long line: 65536 characters, after which the rest of the file is lost. -/
example (post : Text) : parseARFF 4096 sampleOps id id (sampleArff ++ (List.replicate 65536 'x' ++ '\n' :: post)) =
    parseARFF 4096 sampleOps id id sampleArff :=
  C104_long_line 4096 sampleOps id id sampleArff _ post (.inr (by decide +kernel)) (by rw [List.mem_replicate]; decide)
    (by rw [byteLen, List.map_replicate, List.sum_replicate]; decide)

/-- A table with a binary column, which is filled from the second field of each record; the third row and the third column stay as they are. -/
def fillOps : ArffOps := { sampleOps with parse := fun s => if s = "-1" then some 0xBFF0000000000000 else fewNumbers s }
def fillH : Attr := ⟨1, .float "h" 1⟩
def fillB : Attr := ⟨2, .bin "b"⟩
def fillC : Attr := ⟨3, .cat "c" ["yes", "no"]⟩
def fillTable : List Op := [.add fillH, .add fillB, .add fillC, .extend 3, .set 1 2 [1#8], .set 2 0 (packU64 1)]
def fillText : Text := "@data\n1.5, 3\n2,-1\n".toList

example : ∃ st d', run 4096 fillTable = Res.ok st ∧ DenseOK 3 st.d ∧ arffBuild fillOps id [fillH, fillB] st.d fillText = (d', .done) ∧
    ((d'.getAttribute fillB).bind fun s => mapRes (d'.get s) [0, 1, 2]) = Res.ok [[1#8], [0#8], [1#8]] ∧
    ((d'.getAttribute fillC).bind fun s => d'.get s 0) = Res.ok (packU64 1) := by
  obtain ⟨st, h1, h2, h3⟩ : ∃ st, run 4096 fillTable = Res.ok st ∧ (∀ a ∈ [fillH, fillB], a ∈ st.d.allAttributes) ∧
      (((arffBuild fillOps id [fillH, fillB] st.d fillText).1.getAttribute fillB).bind fun s =>
          mapRes ((arffBuild fillOps id [fillH, fillB] st.d fillText).1.get s) [0, 1, 2]) = Res.ok [[1#8], [0#8], [1#8]] ∧
        (((arffBuild fillOps id [fillH, fillB] st.d fillText).1.getAttribute fillC).bind fun s =>
          (arffBuild fillOps id [fillH, fillB] st.d fillText).1.get s 0) = Res.ok (packU64 1) := by
    refine ⟨_, rfl, ?_, ?_⟩
    all_goals decide +kernel
  have D : DenseOK 3 st.d := denseOK_run (pg := 4096) (ops := fillTable) (by decide) h1 (by decide)
  obtain ⟨d', e, _⟩ := C104_fills fillOps id [fillH, fillB] st.d fillText [] ["1.5, 3".toList, "2,-1".toList] "@data".toList D h2 (by decide)
    (fun _ _ => rfl) (by decide +kernel) (by decide) (by decide +kernel) (by decide) (readable_of (by decide +kernel)) (by decide +kernel)
    (by
      intro a ha n vs hb
      simp only [List.mem_cons, List.not_mem_nil, or_false] at ha
      rcases ha with rfl | rfl <;> cases hb)
    (fun r hr => by
      have : ∀ r ∈ recordsOf ["1.5, 3".toList, "2,-1".toList], r.length ≤ 2 ∧
        ∀ p ∈ ([fillH, fillB].map Attr.body).zip r, FieldFits fillOps p.1 (String.ofList (trimSpace p.2)) := by decide +kernel
      refine ⟨(this r hr).1, fun j a v hj hv => fits_of (this r hr).2 j a.body v ?_ hv⟩
      rw [List.getElem?_map, hj]
      rfl)
  rw [e] at h3
  exact ⟨st, d', h1, D, e, h3.1, h3.2⟩

end Golearn
