import Verif.Proofs.Arff
import Verif.Proofs.Table
import Verif.Proofs.ChiTable
import Verif.Props.C104

/-! # The text of an ARFF file, written and taken apart -/

namespace Golearn

/-! ## Lines -/

theorem splitLines_unlines (ls : List Text) (h : ∀ l ∈ ls, '\n' ∉ l) : splitLines (unlines ls) = ls := by
  induction ls with
  | nil => rfl
  | cons l ls ih =>
    have : unlines (l :: ls) = l ++ '\n' :: unlines ls := by
      simp [unlines]
    rw [this, splitLines_line _ _ (h l (by simp)), ih fun q hq => h q (by simp [hq])]

theorem scanLines_unlines (ls : List Text) (h : ∀ l ∈ ls, '\n' ∉ l) (hr : ∀ l ∈ ls, l.getLast? ≠ some '\r') (hs : ∀ l ∈ ls, byteLen l < 65536) :
    scanLines (unlines ls) = ls := by
  rw [scanLines, splitLines_unlines ls h]
  have h1 : (ls.takeWhile fun l => decide (byteLen l < 65536)) = ls := by
    clear h hr
    induction ls with
    | nil => rfl
    | cons l ls ih => rw [List.takeWhile_cons_of_pos (by simpa using hs l (by simp)), ih fun q hq => hs q (by simp [hq])]
  rw [h1]
  conv_rhs => rw [← List.map_id ls]
  exact List.map_congr_left fun l hl => by rw [dropCR, if_neg (hr l hl)]; rfl

theorem isSpace_newline : isSpace '\n' = true := by decide

theorem isSpace_return : isSpace '\r' = true := by decide

theorem IsWord.no_newline {t : Text} (h : IsWord t) : '\n' ∉ t := fun hm => by
  have := h.2 _ hm
  rw [isSpace_newline] at this
  cases this

theorem IsWord.no_return {t : Text} (h : IsWord t) : '\r' ∉ t := fun hm => by
  have := h.2 _ hm
  rw [isSpace_return] at this
  cases this

/-! ## Words -/

theorem fieldsGo_word (w rest : Text) (hw : ∀ c ∈ w, isSpace c = false) : ∀ cur : Text, fieldsGo cur (w ++ rest) = fieldsGo (w.reverse ++ cur) rest := by
  induction w with
  | nil => intro cur; rfl
  | cons c w ih =>
    intro cur
    rw [List.cons_append, fieldsGo, if_neg (by simp [hw c (by simp)]), ih fun x hx => hw x (by simp [hx])]
    simp

theorem fieldsOf_words (ws : List Text) (h : ∀ w ∈ ws, IsWord w) : fieldsOf (joinWith " ".toList ws) = ws := by
  induction ws with
  | nil => rfl
  | cons w ws ih =>
    have hw := h w (by simp)
    have ih := ih fun q hq => h q (by simp [hq])
    have hne : w.reverse ++ [] ≠ [] := by simpa using hw.1
    cases ws with
    | nil =>
      rw [joinWith, fieldsOf]
      have := fieldsGo_word w [] hw.2 []
      rw [List.append_nil] at this
      rw [this, fieldsGo, if_neg hne]
      simp
    | cons v ws =>
      rw [joinWith, fieldsOf, List.append_assoc, fieldsGo_word w _ hw.2 []]
      have : " ".toList ++ joinWith " ".toList (v :: ws) = ' ' :: joinWith " ".toList (v :: ws) := rfl
      rw [this, fieldsGo, if_pos (by decide), if_neg hne]
      rw [fieldsOf] at ih
      rw [ih]
      simp
      simp

theorem trimSpace_word {t : Text} (h : ∀ c ∈ t, isSpace c = false) : trimSpace t = t := by
  have hd : ∀ l : Text, (∀ c ∈ l, isSpace c = false) → l.dropWhile isSpace = l := by
    intro l hl
    cases l with
    | nil => rfl
    | cons c l => rw [List.dropWhile_cons_of_neg (by simp [hl c (by simp)])]
  rw [trimSpace, hd t h, hd _ (fun c hc => h c (List.mem_reverse.1 hc)), List.reverse_reverse]

/-! ## The values of a categorical attribute -/

/-- The words of a list of values, the last with the closing brace. -/
def closeWords : List Text → List Text
  | [] => []
  | [v] => [v ++ "}".toList]
  | v :: vs => (v ++ ",".toList) :: closeWords vs

/-- The same without the brace. -/
def openWords : List Text → List Text
  | [] => []
  | [v] => [v]
  | v :: vs => (v ++ ",".toList) :: openWords vs

theorem joinWith_cons (sep a b : Text) (l : List Text) : joinWith sep (a :: b :: l) = a ++ sep ++ joinWith sep (b :: l) := rfl

theorem joinWith_one (sep a : Text) : joinWith sep [a] = a := rfl

theorem joinWith_closeWords (vs : List Text) (h : vs ≠ []) : joinWith " ".toList (closeWords vs) = joinWith ", ".toList vs ++ "}".toList := by
  induction vs with
  | nil => exact absurd rfl h
  | cons v vs ih =>
    cases vs with
    | nil => rfl
    | cons u us =>
      have ih := ih (by simp)
      have hc : closeWords (v :: u :: us) = (v ++ ",".toList) :: closeWords (u :: us) := rfl
      have hne : ∃ x xs, closeWords (u :: us) = x :: xs := by
        cases us with
        | nil => exact ⟨_, _, rfl⟩
        | cons y ys => exact ⟨_, _, rfl⟩
      obtain ⟨x, xs, e⟩ := hne
      rw [hc, e, joinWith_cons, ← e, ih, joinWith_cons]
      have : ", ".toList = ",".toList ++ " ".toList := by decide
      rw [this]
      simp only [List.append_assoc]

theorem closeWords_last (vs : List Text) (h : vs ≠ []) : ∃ c, (closeWords vs).getLast? = some c ∧
    (closeWords vs).dropLast ++ [c.dropLast] = openWords vs ∧ c.getLast? = some '}' := by
  induction vs with
  | nil => exact absurd rfl h
  | cons v vs ih =>
    cases vs with
    | nil => exact ⟨v ++ "}".toList, rfl, by simp [closeWords, openWords], by simp⟩
    | cons u us =>
      obtain ⟨c, h1, h2, h3⟩ := ih (by simp)
      have hc : closeWords (v :: u :: us) = (v ++ ",".toList) :: closeWords (u :: us) := rfl
      have ho : openWords (v :: u :: us) = (v ++ ",".toList) :: openWords (u :: us) := rfl
      have hne : closeWords (u :: us) ≠ [] := by
        intro e; rw [e] at h1; cases h1
      refine ⟨c, ?_, ?_, h3⟩
      · rw [hc, List.getLast?_cons_of_ne_nil hne, h1]
      · rw [hc, ho, List.dropLast_cons_of_ne_nil hne, List.cons_append, h2]

theorem openWords_strip (vs : List Text) (h : ∀ v ∈ vs, IsPlain v) :
    ((openWords vs).map fun v => let v := trimSpace v; if v.getLast? = some ',' then v.dropLast else v) = vs := by
  induction vs with
  | nil => rfl
  | cons v vs ih =>
    have hv := h v (by simp)
    have hl : v.getLast? ≠ some ',' := fun e => hv.2.1 (List.mem_of_getLast? e)
    cases vs with
    | nil => simp [openWords, trimSpace_word hv.1.2, hl]
    | cons u us =>
      have ih := ih fun q hq => h q (by simp [hq])
      have ho : openWords (v :: u :: us) = (v ++ ",".toList) :: openWords (u :: us) := rfl
      rw [ho, List.map_cons, ih]
      have : trimSpace (v ++ ",".toList) = v ++ ",".toList := trimSpace_word (by
        intro c hc
        rcases List.mem_append.1 hc with hc | hc
        · exact hv.1.2 c hc
        · exact (by decide : ∀ c ∈ ",".toList, isSpace c = false) c hc)
      simp only [this]
      rw [if_pos (by simp)]
      simp

theorem catIntern_new {vs : List String} {v : String} (h : v ∉ vs) : (catIntern vs v).2 = vs ++ [v] := by
  rw [catIntern, findValue_none h]

theorem intern_all (vs : List Text) : ∀ acc : List String, (∀ v ∈ vs, String.ofList v ∉ acc) → (vs.map String.ofList).Nodup →
    vs.foldl (fun a v => (catIntern a (String.ofList v)).2) acc = acc ++ vs.map String.ofList := by
  induction vs with
  | nil => intro acc _ _; simp
  | cons v vs ih =>
    intro acc h hn
    rw [List.map_cons, List.nodup_cons] at hn
    rw [List.foldl_cons, catIntern_new (h v (by simp)), ih]
    · simp
    · intro u hu hm
      rcases List.mem_append.1 hm with hm | hm
      · exact h u (by simp [hu]) hm
      · rw [List.mem_singleton] at hm
        exact hn.1 (hm ▸ List.mem_map_of_mem hu)
    · exact hn.2

theorem splitAtChar_none (x : Char) (t : Text) (h : x ∉ t) : splitAtChar x t = [t] := by
  induction t with
  | nil => rfl
  | cons c t ih =>
    rw [List.mem_cons, not_or] at h
    rw [splitAtChar, if_neg (Ne.symm h.1), ih h.2]

/-- The words between braces are read as the values. -/
theorem arffValues_words (vs : List Text) (hne : vs ≠ []) (h : ∀ v ∈ vs, IsPlain v) (hn : (vs.map String.ofList).Nodup) (w : Text) (ws : List Text)
    (hw : closeWords vs = w :: ws) : arffValues (('{' :: w) :: ws) = vs.map String.ofList := by
  obtain ⟨c, h1, h2, h3⟩ := closeWords_last vs hne
  unfold arffValues
  cases ws with
  | cons _ _ =>
    simp only [List.drop_succ_cons, List.drop_zero]
    rw [← hw, h1]
    simp only
    rw [h2, openWords_strip vs h, intern_all vs [] (by simp) hn, List.nil_append]
  | nil =>
    have : ',' ∉ '{' :: w := by
      cases vs with
      | nil => exact absurd rfl hne
      | cons v vs =>
        cases vs with
        | cons u us => cases us <;> simp [closeWords] at hw
        | nil =>
          have : w = v ++ "}".toList := by
            simp [closeWords] at hw
            simp [← hw]
          rw [this]
          have := (h v (by simp)).2.1
          simp [this]
    simp only [splitAtChar_none _ _ this, List.drop_succ_cons, List.drop_zero]
    rw [← hw, h1]
    simp only
    rw [h2, openWords_strip vs h, intern_all vs [] (by simp) hn, List.nil_append]

/-! ## The line of an attribute -/

theorem closeWords_words (vs : List Text) (h : ∀ v ∈ vs, IsPlain v) : ∀ w ∈ closeWords vs, IsWord w := by
  induction vs with
  | nil => simp [closeWords]
  | cons v vs ih =>
    have hv := (h v (by simp)).1
    have hap : ∀ t : Text, (∀ c ∈ t, isSpace c = false) → IsWord (v ++ t) := by
      intro t ht
      refine ⟨by simp [hv.1], fun c hc => ?_⟩
      rcases List.mem_append.1 hc with hc | hc
      · exact hv.2 c hc
      · exact ht c hc
    cases vs with
    | nil =>
      intro w hw
      rw [closeWords, List.mem_singleton] at hw
      rw [hw]
      exact hap _ (by decide)
    | cons u us =>
      intro w hw
      rw [show closeWords (v :: u :: us) = (v ++ ",".toList) :: closeWords (u :: us) from rfl, List.mem_cons] at hw
      rcases hw with rfl | hw
      · exact hap _ (by decide)
      · exact ih (fun q hq => h q (by simp [hq])) w hw

theorem closeWords_ne {vs : List Text} (h : vs ≠ []) : ∃ w ws, closeWords vs = w :: ws := by
  obtain ⟨c, h1, _⟩ := closeWords_last vs h
  cases e : closeWords vs with
  | nil => rw [e] at h1; cases h1
  | cons w ws => exact ⟨w, ws, rfl⟩

theorem LowerOk.map {lower : Char → Char} (L : LowerOk lower) {t : Text} (h : ∀ c ∈ t, c ∈ "@{abcdefghijklmnopqrstuvwxyz".toList) :
    t.map lower = t := by
  conv_rhs => rw [← List.map_id t]
  exact List.map_congr_left fun c hc => L.keeps c (h c hc)

/-- The line of an attribute declares it. -/
theorem arffAttribute_line {lower : Char → Char} (L : LowerOk lower) (a : Attr) (hn : IsWord a.name.toList)
    (hv : ∀ n vs, a.body = .cat n vs → vs ≠ [] ∧ vs.Nodup ∧ vs.length < 2 ^ 64 ∧ ∀ v ∈ vs, IsPlain v.toList) :
    arffAttribute lower (arffAttrLine a) = Res.ok (some (declaredAs 0 a)) := by
  have hattr : "@attribute".toList.map lower = "@attribute".toList := L.map (by decide)
  have hw0 : IsWord "@attribute".toList := by decide
  have hreal : "real".toList.map lower = "real".toList := L.map (by decide)
  have hhead : ∀ t : Text, (arffAttrLine a).head? = some '@' := by intro _; rfl
  have hfloat : arffType a = "real".toList → declaredAs 0 a = .float a.name 0 →
      arffAttribute lower (arffAttrLine a) = Res.ok (some (declaredAs 0 a)) := by
    intro ht hd
    have hline : arffAttrLine a = joinWith " ".toList ["@attribute".toList, a.name.toList, "real".toList] := by
      rw [arffAttrLine, ht]
    rw [arffAttribute, if_neg (by rw [hhead []]; simp), hline, fieldsOf_words _ (by
      intro w hw
      simp only [List.mem_cons, List.not_mem_nil, or_false] at hw
      rcases hw with rfl | rfl | rfl
      · exact hw0
      · exact hn
      · decide)]
    simp only [hattr, hreal, ne_eq, not_true_eq_false, if_false, if_true, hd, String.ofList_toList]
  obtain ⟨ptr, body⟩ := a
  cases body with
  | float n p => exact hfloat rfl rfl
  | bin n => exact hfloat rfl rfl
  | cat n vs =>
    obtain ⟨h1, h2, _, h4⟩ := hv n vs rfl
    have h1' : vs.map String.toList ≠ [] := by simpa using h1
    have hp : ∀ v ∈ vs.map String.toList, IsPlain v := by
      intro v hv
      obtain ⟨u, hu, rfl⟩ := List.mem_map.1 hv
      exact h4 u hu
    obtain ⟨w, ws, hws⟩ := closeWords_ne h1'
    have hall := closeWords_words _ hp
    rw [hws] at hall
    have hline : arffAttrLine ⟨ptr, .cat n vs⟩ = joinWith " ".toList ("@attribute".toList :: n.toList :: ('{' :: w) :: ws) := by
      have hj := joinWith_closeWords _ h1'
      rw [hws] at hj
      have hb : joinWith " ".toList (('{' :: w) :: ws) = '{' :: joinWith " ".toList (w :: ws) := by cases ws <;> rfl
      have ht : joinWith " ".toList (('{' :: w) :: ws) = arffType ⟨ptr, .cat n vs⟩ := by
        rw [hb, hj]
        rfl
      rw [arffAttrLine, joinWith_cons, joinWith_cons, joinWith_cons, joinWith_cons, ht]
      rfl
    have hlast : ((('{' :: w) :: ws).getLastD []).getLast? = some '}' := by
      obtain ⟨c, e1, _, e3⟩ := closeWords_last _ h1'
      rw [hws] at e1
      cases ws with
      | nil =>
        have : w = c := by simpa using e1
        rw [List.getLastD_cons, List.getLastD_nil, this, List.getLast?_cons_of_ne_nil, e3]
        intro e; rw [e] at e3; cases e3
      | cons x xs =>
        rw [List.getLast?_cons_cons] at e1
        rw [List.getLastD_eq_getLast?, List.getLast?_cons_cons, e1]
        exact e3
    have hrl : ('{' :: w).map lower ≠ "real".toList := by
      rw [List.map_cons, L.keeps '{' (by decide)]
      intro e
      injection e with e _
      exact absurd e (by decide)
    rw [arffAttribute, if_neg (by rw [hhead []]; simp), hline, fieldsOf_words _ (by
      intro x hx
      simp only [List.mem_cons] at hx
      rcases hx with rfl | rfl | rfl | hx
      · exact hw0
      · exact hn
      · have := hall w (by simp)
        refine ⟨by simp, fun c hc => ?_⟩
        rcases List.mem_cons.1 hc with rfl | hc
        · decide
        · exact this.2 c hc
      · exact hall x (by simp [hx]))]
    simp only [hattr, hrl, hlast, ne_eq, not_true_eq_false, if_false, if_true, List.head?_cons]
    rw [arffValues_words _ h1' hp (by rw [List.map_map]; simpa using h2) w ws hws]
    simp [declaredAs]

/-! ## The line of a row -/

theorem csvGo_plain (t rest : Text) (h : ',' ∉ t ∧ '"' ∉ t) : ∀ cur : Text, csvGo (.plain cur) (t ++ rest) = csvGo (.plain (t.reverse ++ cur)) rest := by
  induction t with
  | nil => intro cur; rfl
  | cons c t ih =>
    intro cur
    simp only [List.mem_cons, not_or] at h
    rw [List.cons_append, csvGo, if_neg (Ne.symm h.1.1), if_neg (Ne.symm h.2.1), ih ⟨h.1.2, h.2.2⟩]
    simp

theorem csvGo_join (ts : List Text) (hne : ts ≠ []) (h : ∀ t ∈ ts, IsPlain t) : csvGo .start (joinWith ",".toList ts) = Res.ok ts := by
  induction ts with
  | nil => exact absurd rfl hne
  | cons t ts ih =>
    obtain ⟨hw, hp⟩ := h t (by simp)
    obtain ⟨c, cs, rfl⟩ := List.exists_cons_of_ne_nil hw.1
    simp only [List.mem_cons, not_or] at hp
    have hstart : ∀ rest : Text, csvGo .start (c :: cs ++ rest) = csvGo (.plain (c :: cs).reverse) rest := by
      intro rest
      rw [List.cons_append, csvGo, if_neg (Ne.symm hp.2.1), if_neg (Ne.symm hp.1.1), csvGo_plain cs rest ⟨hp.1.2, hp.2.2⟩]
      simp
    cases ts with
    | nil =>
      rw [joinWith]
      have := hstart []
      rw [List.append_nil] at this
      rw [this, csvGo, List.reverse_reverse]
    | cons u us =>
      rw [joinWith_cons, List.append_assoc, hstart]
      rw [show ",".toList ++ joinWith ",".toList (u :: us) = ',' :: joinWith ",".toList (u :: us) from rfl, csvGo, if_pos rfl,
        ih (by simp) fun q hq => h q (by simp [hq]), Res.map_ok, List.reverse_reverse]

theorem joinWith_mem {sep : Text} {ts : List Text} {c : Char} (h : c ∈ joinWith sep ts) : c ∈ sep ∨ ∃ t ∈ ts, c ∈ t := by
  induction ts with
  | nil => cases h
  | cons t ts ih =>
    cases ts with
    | nil => exact .inr ⟨t, by simp, h⟩
    | cons u us =>
      rw [joinWith_cons, List.mem_append, List.mem_append] at h
      rcases h with (h | h) | h
      · exact .inr ⟨t, by simp, h⟩
      · exact .inl h
      · rcases ih h with h | ⟨x, hx, hc⟩
        · exact .inl h
        · exact .inr ⟨x, by simp [hx], hc⟩

theorem joinWith_head {sep : Text} {t : Text} {ts : List Text} (h : t ≠ []) : (joinWith sep (t :: ts)).head? = t.head? := by
  obtain ⟨c, cs, rfl⟩ := List.exists_cons_of_ne_nil h
  cases ts with
  | nil => rfl
  | cons u us => rfl

/-- No space in the line of a row. -/
theorem join_plain_space {ts : List Text} (h : ∀ t ∈ ts, IsPlain t) : ∀ c ∈ joinWith ",".toList ts, isSpace c = false := by
  intro c hc
  rcases joinWith_mem hc with hc | ⟨t, ht, hc⟩
  · exact (by decide : ∀ c ∈ ",".toList, isSpace c = false) c hc
  · exact (h t ht).1.2 c hc

theorem csvLine_join {ts : List Text} (hne : ts ≠ []) (h : ∀ t ∈ ts, IsPlain t) : csvLine (joinWith ",".toList ts) = Res.ok (some ts) := by
  have hcr : dropCR (joinWith ",".toList ts) = joinWith ",".toList ts := by
    rw [dropCR, if_neg]
    intro e
    have := join_plain_space h _ (List.mem_of_getLast? e)
    rw [isSpace_return] at this
    cases this
  have hnil : joinWith ",".toList ts ≠ [] := by
    obtain ⟨t, us, rfl⟩ := List.exists_cons_of_ne_nil hne
    have ht := (h t (by simp)).1.1
    intro e
    have := joinWith_head (sep := ",".toList) (ts := us) ht
    rw [e] at this
    obtain ⟨c, cs, rfl⟩ := List.exists_cons_of_ne_nil ht
    cases this
  simp only [csvLine, hcr, hnil, if_false, csvGo_join ts hne h, Res.map_ok]

/-! ## The header is not the marker -/

theorem trimSpace_prefix {c : Char} {l : Text} (h : isSpace c = false) : trimSpace (c :: l) <+: c :: l := by
  rw [trimSpace, List.dropWhile_cons_of_neg (by simp [h])]
  have := List.dropWhile_suffix isSpace (l := (c :: l).reverse)
  rw [← List.reverse_prefix, List.reverse_reverse] at this
  exact this

theorem not_marker {x : Char} {l : Text} (hx : x ≠ 'd') : trimSpace ('@' :: x :: l) ≠ "@data".toList := by
  intro e
  have := trimSpace_prefix (c := '@') (l := x :: l) (by decide)
  rw [e] at this
  obtain ⟨t, ht⟩ := this
  injection ht with _ ht
  injection ht with ht _
  exact hx ht.symm

end Golearn
