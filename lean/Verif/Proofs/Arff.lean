import Verif.Spec.Arff
import Verif.Proofs.Csv
import Verif.Proofs.Tree
import Verif.Props.C34
import Verif.Props.C31

/-! # The ARFF parser fills the grid -/

namespace Golearn

theorem findValue_of_mem {vs : List String} {s : String} (h : s ∈ vs) (i : Nat) :
    ∃ k, findValue vs s i = some (i + k) ∧ vs[k]? = some s := by
  induction vs generalizing i with
  | nil => simp at h
  | cons v vs ih =>
    unfold findValue
    by_cases e : v = s
    · exact ⟨0, by simp [e], by simp [e]⟩
    · obtain ⟨k, h1, h2⟩ := ih (by rcases List.mem_cons.1 h with h | h; exact absurd h.symm e; exact h) (i + 1)
      exact ⟨k + 1, by simp only [beq_iff_eq, e, if_false, h1]; congr 1; omega, by simpa using h2⟩

/-- A field that fits is given a value that says it. -/
theorem arffValue_spec {ops : ArffOps} {a : Attr} {t : String} (hf : FieldFits ops a.body t)
    (hfew : ∀ n vs, a.body = .cat n vs → vs.length < 2 ^ 64) :
    ∃ c, arffValue ops a t = Res.ok c ∧ FieldSays ops a t c ∧ wellFormed a c := by
  obtain ⟨ptr, body⟩ := a
  cases body with
  | float n k =>
    obtain ⟨b, hb⟩ := Option.isSome_iff_exists.1 hf
    exact ⟨packU64 b, by simp [arffValue, hb], ⟨b, hb, rfl⟩, by simp [wellFormed, Attr.isBin, packU64_length]⟩
  | bin n =>
    obtain ⟨b, hb⟩ := Option.isSome_iff_exists.1 hf
    refine ⟨[if f64Pos b then 1#8 else 0#8], ?_, ⟨b, hb, rfl⟩, ?_⟩
    · simp only [arffValue, hb]
      split <;> rfl
    · simp only [wellFormed, Attr.isBin, if_true]
      split
      · exact Or.inr rfl
      · exact Or.inl rfl
  | cat n vs =>
    obtain ⟨k, h1, h2⟩ := findValue_of_mem hf 0
    rw [Nat.zero_add] at h1
    have hk := (List.getElem?_eq_some_iff.1 h2).1
    have := hfew n vs rfl
    refine ⟨packU64 (BitVec.ofNat 64 k), by simp [arffValue, catGetSysVal, h1], ⟨packU64_length _, ?_⟩, by
      simp [wellFormed, Attr.isBin, packU64_length]⟩
    have hmod : (BitVec.ofNat 64 k).toNat = k := by
      rw [BitVec.toNat_ofNat]; exact Nat.mod_eq_of_lt (by omega)
    rw [catGetString, C01_unpack_pack, Res.bind_ok]
    simp only [hmod, h2]

/-- One record fills one row. -/
theorem arffRecord_spec (ops : ArffOps) {rows row : Nat} (hrow : row < rows) (vs : List Text) :
    ∀ (d : Dense) (specs : List Spec), DenseOK rows d →
      (∀ s ∈ specs, s.attr ∈ d.allAttributes ∧ d.getAttribute s.attr = Res.ok s) →
      (specs.map Spec.attr).Nodup →
      (∀ p ∈ specs.zip vs, FieldFits ops p.1.attr.body (String.ofList (trimSpace p.2)) ∧
        ∀ n ws, p.1.attr.body = .cat n ws → ws.length < 2 ^ 64) →
      ∃ d', arffRecord ops row d specs vs = (d', if vs.length ≤ specs.length then .done else .runtime) ∧ DenseOK rows d' ∧
        d'.allAttributes = d.allAttributes ∧ d'.classAttrs = d.classAttrs ∧
        (∀ b, d'.getAttribute b = d.getAttribute b) ∧
        (∀ q ∈ specs.zip vs, FieldSays ops q.1.attr (String.ofList (trimSpace q.2)) ((Grid.dense d').cell q.1.attr row)) ∧
        (∀ b ∈ d.allAttributes, ∀ r, r < rows → (r ≠ row ∨ b ∉ (specs.take vs.length).map Spec.attr) →
          (Grid.dense d').cell b r = (Grid.dense d).cell b r) := by
  induction vs with
  | nil =>
    intro d specs D _ _ _
    exact ⟨d, by cases specs <;> rfl, D, rfl, rfl, fun _ => rfl, by simp, fun _ _ _ _ _ => rfl⟩
  | cons v vs ih =>
    intro d specs D hs hn hst
    cases specs with
    | nil => exact ⟨d, by simp [arffRecord], D, rfl, rfl, fun _ => rfl, by simp, fun _ _ _ _ _ => rfl⟩
    | cons s ss =>
      obtain ⟨hsm, hsg⟩ := hs s (by simp)
      rw [List.map_cons, List.nodup_cons] at hn
      obtain ⟨f1, f2⟩ := hst (s, v) (by simp)
      obtain ⟨c, e1, S1, W1⟩ := arffValue_spec f1 f2
      obtain ⟨d1, s1, D1, A1, C1, L1, _, X1⟩ := D.set hsm hsg hrow W1
      obtain ⟨d', e, D', A, C, L, S, U⟩ := ih d1 ss D1
        (fun t ht => by rw [A1, L1]; exact hs t (by simp [ht])) hn.2 (fun p hp => hst p (by simp [hp]))
      refine ⟨d', ?_, D', by rw [A, A1], by rw [C, C1], fun b => by rw [L, L1], ?_, ?_⟩
      · rw [arffRecord]
        simp only [e1, s1, e, List.length_cons, Nat.add_le_add_iff_right]
      · intro q hq
        rw [List.zip_cons_cons, List.mem_cons] at hq
        rcases hq with rfl | hq
        · simp only
          rw [U _ (A1 ▸ hsm) row hrow (Or.inr fun h => hn.1 (List.map_subset _ (List.take_subset _ _) h)), X1 _ hsm row hrow,
            if_pos ⟨rfl, rfl⟩]
          exact S1
        · exact S q hq
      · intro b hb r hr h
        have h' : r ≠ row ∨ b ∉ (ss.take vs.length).map Spec.attr := by
          rcases h with h | h
          · exact Or.inl h
          · right; intro hb'; exact h (by simp only [List.length_cons, List.take_succ_cons, List.map_cons]; exact List.mem_cons_of_mem _ hb')
        rw [U b (A1 ▸ hb) r hr h', X1 b hb r hr, if_neg]
        rintro ⟨h1, h2⟩
        rcases h with h | h
        · exact h h2
        · exact h (by rw [h1]; simp)

theorem csvLine_nil : csvLine [] = Res.ok none := rfl

theorem isDataLine_of {l : Text} (h : l ≠ []) (h1 : l.head? ≠ some '@') (h2 : l.head? ≠ some '%') : isDataLine l = true := by
  cases l with
  | nil => exact absurd rfl h
  | cons c cs => simp_all [isDataLine]

/-- The loop that counts, after `@data`. -/
theorem arffCount_data (lower : Char → Char) (ls : List Text) (h : ∀ l ∈ ls, Readable l) :
    arffCount lower true ls = (recordsOf ls).length := by
  induction ls with
  | nil => rfl
  | cons l ls ih =>
    have ih := ih fun q hq => h q (by simp [hq])
    obtain ⟨h1, h2⟩ := h l (by simp)
    cases l with
    | nil => rw [arffCount, ih]; rfl
    | cons c cs =>
      rw [arffCount]
      have hc : c ≠ '@' := by simpa using h1
      by_cases hp : c = '%'
      · rw [if_pos (.inr hp), ih]
        have : isDataLine (c :: cs) = false := by simp [isDataLine, hp]
        simp [recordsOf, this]
      · rw [if_neg (by simp [hc, hp]), ih]
        have hd : isDataLine (c :: cs) = true := by simp [isDataLine, hc, hp]
        obtain ⟨r, hr⟩ := h2 hd
        have : recordOf (c :: cs) = some r := by rw [recordOf, hr]
        simp [recordsOf, hd, this]

/-- The records fill consecutive rows, and the reading goes on with the lines that follow. -/
theorem arffRead_data (ops : ArffOps) {rows : Nat} (specs : List Spec) (hn : (specs.map Spec.attr).Nodup) (rest ls : List Text)
    (hr : ∀ l ∈ ls, Readable l) :
    ∀ (row : Nat) (d : Dense), row + (recordsOf ls).length ≤ rows → DenseOK rows d →
      (∀ s ∈ specs, s.attr ∈ d.allAttributes ∧ d.getAttribute s.attr = Res.ok s) →
      (∀ r ∈ recordsOf ls, r.length ≤ specs.length ∧ ∀ p ∈ specs.zip r, FieldFits ops p.1.attr.body (String.ofList (trimSpace p.2)) ∧
        ∀ n ws, p.1.attr.body = .cat n ws → ws.length < 2 ^ 64) →
      ∃ d', arffRead ops specs true row d (ls ++ rest) = arffRead ops specs true (row + (recordsOf ls).length) d' rest ∧ DenseOK rows d' ∧
        d'.allAttributes = d.allAttributes ∧ d'.classAttrs = d.classAttrs ∧ (∀ b, d'.getAttribute b = d.getAttribute b) ∧
        (∀ i (h : i < (recordsOf ls).length), ∀ q ∈ specs.zip (recordsOf ls)[i],
          FieldSays ops q.1.attr (String.ofList (trimSpace q.2)) ((Grid.dense d').cell q.1.attr (row + i))) ∧
        (∀ i (h : i < (recordsOf ls).length), ∀ b ∈ d.allAttributes, b ∉ (specs.take (recordsOf ls)[i].length).map Spec.attr →
          (Grid.dense d').cell b (row + i) = (Grid.dense d).cell b (row + i)) ∧
        (∀ b ∈ d.allAttributes, ∀ r, r < rows → (r < row ∨ row + (recordsOf ls).length ≤ r) →
          (Grid.dense d').cell b r = (Grid.dense d).cell b r) := by
  induction ls with
  | nil =>
    intro row d _ D _ _
    exact ⟨d, rfl, D, rfl, rfl, fun _ => rfl, by simp [recordsOf], by simp [recordsOf], fun _ _ _ _ _ => rfl⟩
  | cons l ls ih =>
    intro row d hle D hs hst
    have ih := ih fun q hq => hr q (by simp [hq])
    obtain ⟨h1, h2⟩ := hr l (by simp)
    by_cases hd : isDataLine l = true
    · obtain ⟨r, hcr⟩ := h2 hd
      have hrec : recordsOf (l :: ls) = r :: recordsOf ls := by simp [recordsOf, hd, recordOf, hcr]
      have hpc : l.head? ≠ some '%' := by
        intro e
        cases l with
        | nil => cases e
        | cons c cs => simp_all [isDataLine]
      rw [hrec] at hle hst ⊢
      simp only [List.length_cons] at hle ⊢
      obtain ⟨d1, e1, D1, A1, C1, L1, S1, U1⟩ := arffRecord_spec ops (rows := rows) (row := row) (by omega) r d specs D hs hn (hst r (by simp)).2
      rw [if_pos (hst r (by simp)).1] at e1
      obtain ⟨d', e, D', A, C, L, S, Z, U⟩ := ih (row + 1) d1 (by omega) D1
        (fun s h => by rw [A1, L1]; exact hs s h) (fun q hq => hst q (by simp [hq]))
      refine ⟨d', ?_, D', by rw [A, A1], by rw [C, C1], fun b => by rw [L, L1], ?_, ?_, ?_⟩
      · rw [List.cons_append, arffRead, if_neg hpc, if_pos rfl]
        simp only [hcr, e1]
        rw [e]
        congr 1
        omega
      · intro i hi q hq
        cases i with
        | zero =>
          simp only [List.getElem_cons_zero] at hq
          have hqm := (hs q.1 (List.of_mem_zip hq).1).1
          rw [Nat.add_zero, U _ (A1 ▸ hqm) row (by omega) (Or.inl (by omega))]
          exact S1 q hq
        | succ i =>
          simp only [List.getElem_cons_succ] at hq
          rw [show row + (i + 1) = row + 1 + i by omega]
          exact S i (by omega) q hq
      · intro i hi b hb hnb
        cases i with
        | zero =>
          simp only [List.getElem_cons_zero] at hnb
          rw [Nat.add_zero, U _ (A1 ▸ hb) row (by omega) (Or.inl (by omega))]
          exact U1 b hb row (by omega) (Or.inr hnb)
        | succ i =>
          simp only [List.getElem_cons_succ] at hnb
          rw [show row + (i + 1) = row + 1 + i by omega, Z i (by omega) b (A1 ▸ hb) hnb]
          exact U1 b hb _ (by omega) (Or.inl (by omega))
      · intro b hb q hq h
        rw [U b (A1 ▸ hb) q hq (by omega)]
        exact U1 b hb q hq (Or.inl (by omega))
    · have hrec : recordsOf (l :: ls) = recordsOf ls := by simp [recordsOf, hd]
      have hstep : arffRead ops specs true row d (l :: ls ++ rest) = arffRead ops specs true row d (ls ++ rest) := by
        rw [List.cons_append, arffRead]
        by_cases hpc : l.head? = some '%'
        · rw [if_pos hpc]
        · have : l = [] := by
            by_contra hne
            exact hd (isDataLine_of hne h1 hpc)
          subst this
          rw [if_neg hpc, if_pos rfl]
          rfl
      rw [hrec] at hle hst ⊢
      rw [hstep]
      exact ih row d hle D hs hst

/-- The loops, before `@data`. -/
theorem arffCount_header (lower : Char → Char) (hdr : List Text) (dl : Text) (ls : List Text)
    (hh : ∀ l ∈ hdr, l.map lower ≠ "@data".toList) (hd : dl.map lower = "@data".toList) (hd' : dl.head? = some '@') :
    arffCount lower false (hdr ++ dl :: ls) = arffCount lower true ls := by
  induction hdr with
  | nil =>
    cases dl with
    | nil => cases hd'
    | cons c cs =>
      have hc : c = '@' := by simpa using hd'
      rw [List.nil_append, arffCount, decide_eq_true ⟨hc, hd⟩]
  | cons l hdr ih =>
    have ih := ih fun q hq => hh q (by simp [hq])
    cases l with
    | nil => rw [List.cons_append, arffCount, ih]
    | cons c cs => rw [List.cons_append, arffCount, decide_eq_false (fun h => hh _ (by simp) h.2), ih]

theorem trimSpace_data : trimSpace "@data".toList = "@data".toList := by decide

theorem arffRead_header (ops : ArffOps) (specs : List Spec) (d : Dense) (hdr : List Text) (dl : Text) (ls : List Text)
    (hh : ∀ l ∈ hdr, trimSpace (l.map ops.lower) ≠ "@data".toList) (hd : dl.map ops.lower = "@data".toList) (hd' : dl.head? = some '@') :
    arffRead ops specs false 0 d (hdr ++ dl :: ls) = arffRead ops specs true 0 d ls := by
  induction hdr with
  | nil => rw [List.nil_append, arffRead, if_neg (by rw [hd']; decide), if_neg (by decide), hd, trimSpace_data]; rfl
  | cons l hdr ih =>
    have ih := ih fun q hq => hh q (by simp [hq])
    rw [List.cons_append, arffRead]
    split
    · exact ih
    · rw [if_neg (by decide), decide_eq_false (hh l (by simp)), ih]

theorem trimSpace_ne {l : Text} (h : trimSpace l ≠ "@data".toList) : l ≠ "@data".toList := fun e => h (by rw [e, trimSpace_data])

/-- The attributes are those of the header. -/
theorem mapRes_append {α β : Type} (f : α → Res β) (l l' : List α) :
    mapRes f (l ++ l') = (mapRes f l).bind fun x => (mapRes f l').map fun y => x ++ y := by
  induction l with
  | nil =>
    rw [List.nil_append]
    simp only [mapRes, Res.bind_ok, List.nil_append]
    cases mapRes f l' <;> rfl
  | cons a l ih =>
    rw [List.cons_append]
    simp only [mapRes]
    cases f a with
    | err => rfl
    | panic => rfl
    | ok b =>
      simp only [Res.bind_ok]
      rw [ih]
      cases mapRes f l with
      | err => rfl
      | panic => rfl
      | ok x => cases mapRes f l' <;> rfl

theorem arffAttributes_lines (lower : Char → Char) (hdr : List Text) (dl : Text) (ls : List Text)
    (hd : dl.map lower = "@data".toList) (hsp : ∀ c, isSpace c = true → isSpace (lower c) = true) (hl : ∀ l ∈ ls, l.head? ≠ some '@') :
    (mapRes (arffAttribute lower) (hdr ++ dl :: ls)).map (fun l => l.filterMap id) =
      (mapRes (arffAttribute lower) hdr).map (fun l => l.filterMap id) := by
  have h1 : ∀ ls : List Text, (∀ l ∈ ls, l.head? ≠ some '@') → mapRes (arffAttribute lower) ls = Res.ok (ls.map fun _ => none) := by
    intro ls hl
    induction ls with
    | nil => rfl
    | cons l ls ih =>
      rw [mapRes, ih fun q hq => hl q (by simp [hq]), arffAttribute, if_pos (hl l (by simp))]
      rfl
  have h2 : arffAttribute lower dl = Res.ok none := by
    have hf : fieldsOf dl = [dl] := by
      have hns : ∀ c ∈ dl, isSpace c = false := by
        intro c hc
        by_contra hs
        have := hsp c (by simpa using hs)
        have hm : lower c ∈ "@data".toList := hd ▸ List.mem_map_of_mem hc
        rw [(by decide : ∀ x ∈ "@data".toList, isSpace x = false) _ hm] at this
        cases this
      have hne : dl ≠ [] := by
        intro e; rw [e, List.map_nil] at hd; exact absurd hd (by decide)
      have : ∀ (l cur : Text), (∀ c ∈ l, isSpace c = false) → (cur ≠ [] ∨ l ≠ []) → fieldsGo cur l = [cur.reverse ++ l] := by
        intro l
        induction l with
        | nil =>
          intro cur _ h
          have : cur ≠ [] := by simpa using h
          simp [fieldsGo, this]
        | cons c l ih =>
          intro cur h _
          rw [fieldsGo, if_neg (by simp [h c (by simp)]), ih _ (fun x hx => h x (by simp [hx])) (.inl (by simp))]
          simp
      rw [fieldsOf, this dl [] hns (.inr hne)]
      rfl
    rw [arffAttribute]
    split
    · rfl
    · rw [hf]
  rw [mapRes_append, mapRes, h2, h1 ls hl]
  cases mapRes (arffAttribute lower) hdr with
  | err => rfl
  | panic => rfl
  | ok x =>
    simp only [Res.bind_ok, Res.map_ok]
    congr 1
    rw [List.filterMap_append]
    have : (List.filterMap id (none :: ls.map fun _ => (none : Option AttrBody))) = [] := by
      simp
    rw [this, List.append_nil]

/-! ## The whole file -/

theorem findInGroups_resize (a : Attr) (f : Group → Nat) (gs : List Group) (i : Nat) :
    Dense.findInGroups a (gs.map fun g => g.resize (f g)) i = Dense.findInGroups a gs i := by
  induction gs generalizing i with
  | nil => rfl
  | cons g gs ih =>
    rw [List.map_cons]
    unfold Dense.findInGroups
    rw [ih]
    rfl

theorem extend_getAttribute (d : Dense) (n : Nat) (a : Attr) : (d.extend n).getAttribute a = d.getAttribute a := by
  unfold Dense.getAttribute Dense.extend
  simp only
  rw [findInGroups_resize]

theorem body_name (a : Attr) : a.body.name = a.name := by
  obtain ⟨p, b⟩ := a
  cases b <;> rfl

/-- A file whose lines are a header, the line `@data`, lines of data that can be read, and others: its attributes are added, its rows are
counted, and the lines of data fill the first rows, upon which the reading goes on with the others. -/
theorem arff_core (pg : Nat) (ops : ArffOps) (srt : List Spec → List Spec) (fresh : Nat → Nat) (text : Text) (hdr data rest : List Text) (dl : Text)
    (bodies : List AttrBody) (hlines : scanLines text = hdr ++ dl :: (data ++ rest))
    (hh : ∀ l ∈ hdr, trimSpace (l.map ops.lower) ≠ "@data".toList) (hd : dl.map ops.lower = "@data".toList) (hd' : dl.head? = some '@')
    (hdata : ∀ l ∈ data, Readable l) (hbodies : arffAttributes ops.lower text = Res.ok bodies) (hne : bodies ≠ [])
    (hnames : (bodies.map AttrBody.name).Nodup) (hfew : ∀ n vs, AttrBody.cat n vs ∈ bodies → vs.length < 2 ^ 64)
    (hbin : ∀ n, AttrBody.bin n ∉ bodies)
    (hrec : ∀ r ∈ recordsOf data, r.length ≤ bodies.length ∧
      ∀ (j : Nat) b v, bodies[j]? = some b → r[j]? = some v → FieldFits ops b (String.ofList (trimSpace v)))
    (hsrt : ∀ l : List Spec, l.length = bodies.length → srt l = l) (n : Nat) (hn : arffRows ops.lower text = n)
    (hroom : (recordsOf data).length ≤ n) :
    ∃ d specs last, parseARFF pg ops srt fresh text = arffFinish (arffRead ops specs true (recordsOf data).length d rest) ∧ DenseOK n d ∧
      specs.map Spec.attr = withPtrs fresh 0 bodies ∧ (specs.map Spec.attr).Nodup ∧
      (∀ s ∈ specs, s.attr ∈ d.allAttributes ∧ d.getAttribute s.attr = Res.ok s) ∧
      d.allAttributes.Perm (withPtrs fresh 0 bodies) ∧
      (withPtrs fresh 0 bodies).getLast? = some last ∧ d.allClassAttributes = [last] ∧
      (∀ i (h : i < (recordsOf data).length), ∀ q ∈ specs.zip (recordsOf data)[i],
        FieldSays ops q.1.attr (String.ofList (trimSpace q.2)) ((Grid.dense d).cell q.1.attr i)) ∧
      (∀ i (h : i < (recordsOf data).length), ∀ b ∈ d.allAttributes, b ∉ (specs.take (recordsOf data)[i].length).map Spec.attr →
        (Grid.dense d).cell b i = packU64 0) ∧
      (∀ b ∈ d.allAttributes, ∀ r, r < n → (recordsOf data).length ≤ r → (Grid.dense d).cell b r = packU64 0) := by
  obtain ⟨cols, hcols⟩ : ∃ cols, cols = withPtrs fresh 0 bodies := ⟨_, rfl⟩
  have hcb : cols.map Attr.body = bodies := by rw [hcols]; exact withPtrs_body fresh 0 bodies
  have hlen : cols.length = bodies.length := by rw [← hcb, List.length_map]
  have hcn : (cols.map Attr.name).Nodup := by
    have : cols.map Attr.name = bodies.map AttrBody.name := by
      rw [← hcb, List.map_map]
      exact List.map_congr_left fun a _ => (body_name a).symm
    rw [this]; exact hnames
  have hnb : ∀ a ∈ cols, a.isBin = false := by
    intro a ha
    obtain ⟨p, b⟩ := a
    cases b with
    | float _ _ => rfl
    | cat _ _ => rfl
    | bin m => exact absurd (hcb ▸ List.mem_map_of_mem ha) (hbin m)
  have hdist := names_distinct hcn
  have hcne : cols ≠ [] := by
    intro e
    rw [e] at hcb
    exact hne hcb.symm
  obtain ⟨last, hlast⟩ : ∃ last, cols.getLast? = some last := by
    rw [List.getLast?_eq_getLast_of_ne_nil hcne]
    exact ⟨_, rfl⟩
  have hlm : last ∈ cols := List.mem_of_getLast? hlast
  obtain ⟨d0, e0, D0, P0, K0, Z0⟩ := fresh_build pg cols n hdist
  obtain ⟨sl, hl1, hl2, _⟩ := D0.presents.read last (P0.symm.subset hlm)
  have hl1' : d0.getAttribute last = Res.ok sl := by rw [← extend_getAttribute d0 n]; exact hl1
  have hcl : d0.addClassAttribute last = Res.ok { d0 with classAttrs := d0.classAttrs.set sl true } := by
    rw [Dense.addClassAttribute, hl1', Res.map_ok]
  obtain ⟨d1, hd1⟩ : ∃ d1 : Dense, d1 = Dense.extend { d0 with classAttrs := d0.classAttrs.set sl true } n := ⟨_, rfl⟩
  have hd1' : d1 = { d0.extend n with classAttrs := d0.classAttrs.set sl true } := hd1
  have D1 : DenseOK n d1 := by rw [hd1']; exact D0.withClass _
  have A1 : d1.allAttributes = (d0.extend n).allAttributes := by rw [hd1']; rfl
  have hcell1 : ∀ a r, (Grid.dense d1).cell a r = (Grid.dense (d0.extend n)).cell a r := by intro a r; rw [hd1']; rfl
  have K1 : d1.allClassAttributes = [last] := by
    have : d0.classAttrs = [] := K0
    simp [Dense.allClassAttributes, hd1', this, GoMap.set, hl2]
  have P1 : d1.allAttributes.Perm cols := by rw [A1]; exact P0
  obtain ⟨specs, es, ms, ws⟩ := resolve_spec D1 srt cols (fun a ha => P1.symm.subset ha) (fun l hl => hsrt l (by omega))
  have hnodup : (specs.map Spec.attr).Nodup := by rw [ms]; exact distinct_nodup hdist
  have hsl : specs.length = bodies.length := by rw [← hlen, ← ms, List.length_map]
  obtain ⟨d2, e2, D2, A2, C2, L2, S2, Z2, U2⟩ := arffRead_data ops (rows := n) specs hnodup rest data hdata 0 d1 (by omega) D1 ws (by
    intro r hr
    obtain ⟨h1, h2⟩ := hrec r hr
    refine ⟨by omega, ?_⟩
    intro p hp
    obtain ⟨j, hj⟩ := List.mem_iff_getElem?.1 hp
    rw [List.getElem?_zip_eq_some] at hj
    have hb : bodies[j]? = some p.1.attr.body := by rw [← hcb, ← ms, List.getElem?_map, List.getElem?_map, hj.1]; rfl
    exact ⟨h2 j _ _ hb hj.2, fun m vs e => hfew m vs (e ▸ List.mem_of_getElem? hb)⟩)
  simp only [Nat.zero_add] at e2 S2 Z2 U2
  have A12 : ∀ {b}, b ∈ d2.allAttributes → b ∈ d1.allAttributes := fun h => A2 ▸ h
  have hzero : ∀ b ∈ d1.allAttributes, ∀ r, r < n → (Grid.dense d1).cell b r = packU64 0 := by
    intro b hb r hr
    rw [hcell1]
    exact Z0 b (P1.subset hb) (hnb b (P1.subset hb)) r hr
  refine ⟨d2, specs, last, ?_, D2, by rw [ms, hcols], hnodup, fun s hs => by rw [A2, L2]; exact ws s hs, by rw [A2, ← hcols]; exact P1,
    by rw [← hcols]; exact hlast, ?_, S2, ?_, ?_⟩
  · unfold parseARFF
    rw [hbodies, Res.bind_ok, ← hcols]
    simp only
    rw [e0, Res.bind_ok, hlast]
    simp only
    rw [hcl, hn]
    simp only
    rw [← hd1]
    unfold arffBuild
    rw [es]
    simp only
    rw [hlines, arffRead_header ops specs d1 hdr dl (data ++ rest) hh hd hd', e2]
  · unfold Dense.allClassAttributes at K1 ⊢
    rw [C2]; exact K1
  · intro i hi b hb hnot
    rw [Z2 i hi b (A12 hb) hnot]
    exact hzero b (A12 hb) i (by omega)
  · intro b hb r hr hle
    rw [U2 b (A12 hb) r hr (.inr hle)]
    exact hzero b (A12 hb) r hr

end Golearn
