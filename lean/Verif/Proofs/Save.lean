import Verif.Spec.Save
import Verif.Spec.Tree
import Verif.Props.C32
import Verif.Proofs.Grid
import Verif.Proofs.ClassAttrs
import Mathlib.Data.List.Forall2

/-! # Lemmas about saved models -/

namespace Golearn

/-! ## Attributes at other addresses -/

theorem findInGroup_body {a b : Attr} (h : a.body = b.body) (i : Nat) (as : List Attr) (j : Nat) :
    Dense.findInGroup i a as j = Dense.findInGroup i b as j := by
  induction as generalizing j with
  | nil => rfl
  | cons c cs ih =>
    have : c.equals a = c.equals b := by rw [Attr.equals, Attr.equals, h]
    simp only [Dense.findInGroup, this, ih]

theorem findInGroups_body {a b : Attr} (h : a.body = b.body) (gs : List Group) (i : Nat) :
    Dense.findInGroups a gs i = Dense.findInGroups b gs i := by
  induction gs generalizing i with
  | nil => rfl
  | cons g gs ih => simp only [Dense.findInGroups, findInGroup_body h, ih]

theorem findSpec_body {a b : Attr} (h : a.body = b.body) (ss : List Spec) :
    Grid.findSpec ss a = Grid.findSpec ss b := by
  induction ss with
  | nil => rfl
  | cons s ss ih =>
    have : s.attr.equals a = s.attr.equals b := by rw [Attr.equals, Attr.equals, h]
    simp only [Grid.findSpec, this, ih]

theorem getAttribute_body {a b : Attr} (h : a.body = b.body) : ∀ (g : Grid), g.Unfiltered →
    g.getAttribute a = g.getAttribute b
  | .dense d, _ => by simp only [Grid.getAttribute, Dense.getAttribute, findInGroups_body h]
  | .view src none _ _ _, hu => by
    simp only [Grid.getAttribute]
    exact getAttribute_body h src hu
  | .view _ (some ss) _ _ _, _ => by simp only [Grid.getAttribute, findSpec_body h]
  | .filt _ _ _ _, hu => hu.elim

theorem same_class (fo : FloatOps) (g : Grid) (hu : g.Unfiltered) (ord : List String → List String)
    (row : Nat) (t t' : Tree) (h : t.Same t') :
    treeClass fo g ord row t' = treeClass fo g ord row t ∧ treeDistAt fo g ord row t' = treeDistAt fo g ord row t := by
  induction t generalizing t' with
  | leaf d c =>
    cases t' with
    | leaf d' c' =>
      obtain ⟨rfl, rfl⟩ := h
      exact ⟨rfl, rfl⟩
    | split => exact h.elim
  | split d c r keys child ih =>
    cases t' with
    | leaf => exact h.elim
    | split d' c' r' keys' child' =>
      obtain ⟨rfl, rfl, hv, hb, rfl, hc⟩ := h
      have key : ∀ k ∈ keys, treeClass fo g ord row (child' k) = treeClass fo g ord row (child k) ∧
          treeDistAt fo g ord row (child' k) = treeDistAt fo g ord row (child k) := fun k hk => ih k _ (hc k hk)
      simp only [treeClass, treeDistAt, getAttribute_body hb g hu, hv]
      constructor
      all_goals
        congr 1
        funext s
        congr 1
        funext v
        congr 1
        funext k
        split
        · rename_i hk
          first | exact (key k hk).1 | exact (key k hk).2
        · split
          · rename_i hk
            first | exact (key _ hk).1 | exact (key _ hk).2
          · rfl

theorem same_predict (e : PredEnv) (g : Grid) (hu : g.Unfiltered) (t t' : Tree) (h : t.Same t') :
    treePredict e t' g = treePredict e t g := by
  unfold treePredict
  have : ∀ row, treeClass e.fo g (e.ord row) row t' = treeClass e.fo g (e.ord row) row t :=
    fun row => (same_class e.fo g hu (e.ord row) row t t' h).1
  simp only [this]

theorem same_proba (e : PredEnv) (srt : List ClassProba → List ClassProba)
    (co : List String → List String) (g : Grid) (hu : g.Unfiltered) (t t' : Tree) (h : t.Same t') :
    treePredictProba e srt co t' g = treePredictProba e srt co t g := by
  unfold treePredictProba
  have : ∀ row, treeDistAt e.fo g (e.ord row) row t' = treeDistAt e.fo g (e.ord row) row t :=
    fun row => (same_class e.fo g hu (e.ord row) row t t' h).2
  simp only [this]

/-! ## Trees as JSON -/

theorem attrKept_roundtrip {nilVals : Bool} {viaFloat : Int → Int} {b : AttrBody} (h : AttrKept nilVals viaFloat b) :
    deserializeAttr viaFloat (attrToJson nilVals b) = Res.ok b := by
  obtain ⟨b', e, _, _, e'⟩ := C30_attribute_roundtrip_partial viaFloat nilVals b h.1 0 0
  rw [e, e' h.2]

theorem attrViaMap_kept {nilVals : Bool} {viaFloat : Int → Int} {b : AttrBody} (h : AttrKept nilVals viaFloat b) :
    attrViaMap viaFloat b = b := by
  cases b with
  | float n k => simp only [attrViaMap, h.2 n k rfl]
  | cat => rfl
  | bin => rfl

theorem attrToJson_obj (nilVals : Bool) (b : AttrBody) : ∃ l, attrToJson nilVals b = .obj l := by
  cases b <;> exact ⟨_, rfl⟩

/-- What reading gives for a rule that was written. -/
def keptRule (ptr : Nat) : Option (Option Rule) → Option Rule
  | some (some r) => some ⟨⟨ptr, r.attr.body⟩, r.val⟩
  | _ => none

theorem rule_roundtrip (S : SaveEnv) (L : LoadEnv) (hL : L.viaFloat = S.viaFloat) (ptr : Nat) (r : Option (Option Rule))
    (hr : ∀ q, r = some (some q) → RuleKept S q) :
    ∃ j, ruleToJson S r = Res.ok j ∧ ruleOfJson L ptr (some j) = Res.ok (keptRule ptr r) := by
  cases r with
  | none => exact ⟨_, rfl, rfl⟩
  | some r =>
    cases r with
    | none => exact ⟨_, rfl, by simp [ruleOfJson, Json.field, splitValOf, keptRule]⟩
    | some q =>
      obtain ⟨hf, hk⟩ := hr q rfl
      refine ⟨_, by rw [ruleToJson, if_pos hf], ?_⟩
      rw [attrViaMap_kept hk]
      obtain ⟨l, hl⟩ := attrToJson_obj S.nilVals q.attr.body
      have hd := attrKept_roundtrip hk
      rw [hl] at hd ⊢
      simp [ruleOfJson, Json.field, splitValOf, keptRule, hL, hd]

theorem dist_roundtrip (d : GoMap String Nat) : distOfJson (some (distToJson d)) = Res.ok d := by
  have : ∀ l : GoMap String Nat, mapRes countOfJson (l.map fun p => (p.1, Json.num p.2)) = Res.ok l := by
    intro l
    induction l with
    | nil => rfl
    | cons p ps ih => simp [mapRes, countOfJson, ih]
  exact this d

theorem depth_fields {l : List (String × Json)} {p : String × Json} (h : p ∈ l) : p.2.depth ≤ Json.depthFields l := by
  induction l with
  | nil => simp at h
  | cons q qs ih =>
    obtain ⟨a, b⟩ := q
    rw [Json.depthFields]
    rcases List.mem_cons.1 h with rfl | h
    · exact le_max_left _ _
    · exact le_trans (ih h) (le_max_right _ _)

theorem tree_roundtrip (S : SaveEnv) (L : LoadEnv) (hL : L.viaFloat = S.viaFloat) (info : List String → LeafInfo)
    (hi : ∀ p r, (info p).rule = some (some r) → RuleKept S r) (t : Tree) (hk : t.Keyed)
    (hr : t.AllRules (RuleKept S)) (path : List String) :
    ∃ j, treeToJson S info t path = Res.ok j ∧
      ∀ fuel, j.depth < fuel → ∀ path', ∃ t', treeOfJson L fuel path' j = Res.ok t' ∧ t.Same t' := by
  induction t generalizing path with
  | leaf d c =>
    obtain ⟨rj, hrj, _⟩ := rule_roundtrip S L hL 0 (info path).rule (fun q h => hi path q h)
    refine ⟨_, by rw [treeToJson, hrj, Res.map_ok], ?_⟩
    intro fuel hf path'
    obtain ⟨rj', hrj', h2⟩ := rule_roundtrip S L hL (L.fresh path') (info path).rule (fun q h => hi path q h)
    obtain rfl : rj = rj' := by rw [hrj] at hrj'; exact Res.ok.inj hrj'
    cases fuel with
    | zero => omega
    | succ fuel =>
      refine ⟨.leaf d c, ?_, rfl, rfl⟩
      simp [treeOfJson, jsonStringField, Json.field, dist_roundtrip, h2]
  | split d c r keys child ih =>
    have hch : ∀ k, k ∈ keys → ∃ j, treeToJson S info (child k) (path ++ [k]) = Res.ok j ∧
        ∀ fuel, j.depth < fuel → ∀ path', ∃ t', treeOfJson L fuel path' j = Res.ok t' ∧ (child k).Same t' :=
      fun k hkk => ih k (hk.2 k hkk) (hr.2 k hkk) (path ++ [k])
    haveI : Nonempty Json := ⟨.null⟩
    choose! J hJ1 hJ2 using hch
    obtain ⟨rj, hrj, _⟩ := rule_roundtrip S L hL 0 (some (some r)) (fun q h => by
      simp only [Option.some.injEq] at h; exact h ▸ hr.1)
    have hm : mapRes (fun k => (treeToJson S info (child k) (path ++ [k])).map fun j => (k, j)) keys =
        Res.ok (keys.map fun k => (k, J k)) :=
      mapRes_of_ok _ _ _ (fun k hkk => by rw [hJ1 k hkk, Res.map_ok])
    refine ⟨_, by rw [treeToJson, hm, Res.bind_ok, hrj, Res.map_ok], ?_⟩
    intro fuel hf path'
    obtain ⟨rj', hrj', h2⟩ := rule_roundtrip S L hL (L.fresh path') (some (some r)) (fun q h => by
      simp only [Option.some.injEq] at h; exact h ▸ hr.1)
    obtain rfl : rj = rj' := by rw [hrj] at hrj'; exact Res.ok.inj hrj'
    cases fuel with
    | zero => omega
    | succ fuel =>
      have hd : ∀ k, k ∈ keys → ∃ t', treeOfJson L fuel (path' ++ [k]) (J k) = Res.ok t' ∧ (child k).Same t' := by
        intro k hkk
        refine hJ2 k hkk fuel ?_ _
        have h1 := depth_fields (l := keys.map fun k => (k, J k)) (p := (k, J k)) (List.mem_map.2 ⟨k, hkk, rfl⟩)
        simp only [Json.depth, Json.depthFields] at hf
        have : (J k).depth ≤ Json.depthFields (keys.map fun k => (k, J k)) := h1
        omega
      haveI : Nonempty Tree := ⟨.leaf [] ""⟩
      choose! T hT1 hT2 using hd
      have hm' : mapRes (fun p : String × Json => (treeOfJson L fuel (path' ++ [p.1]) p.2).map fun t => (p.1, t))
          (keys.map fun k => (k, J k)) = Res.ok ((keys.map fun k => (k, J k)).map fun p => (p.1, T p.1)) := by
        apply mapRes_of_ok
        intro p hp
        obtain ⟨k, hkk, rfl⟩ := List.mem_map.1 hp
        simp only [hT1 k hkk, Res.map_ok]
      have he : treeOfJson L (fuel + 1) path' (.obj [("node_type", .num 2), ("children", .obj (keys.map fun k => (k, J k))),
          ("class_dist", distToJson d), ("class_string", .str c), ("decision_tree_rule", rj)]) =
          nodeOf d c (keptRule (L.fresh path') (some (some r))) ((keys.map fun k => (k, J k)).map fun p => (p.1, T p.1)) := by
        simp [treeOfJson, jsonStringField, Json.field, dist_roundtrip, h2, hm']
      refine ⟨.split d c ⟨⟨L.fresh path', r.attr.body⟩, r.val⟩ _ _, he.trans rfl, rfl, rfl, rfl, rfl, ?_, ?_⟩
      · simp [Function.comp_def]
      · intro k hkk
        have hg : GoMap.get? ((keys.map fun k => (k, J k)).map fun p => (p.1, T p.1)) k = some (T k) := by
          rw [← GoMap.get?_of_mem]
          · simp only [List.map_map, List.mem_map, Function.comp]
            exact ⟨k, hkk, rfl⟩
          · simp only [List.map_map, Function.comp_def]
            simpa using hk.1
        show (child k).Same ((GoMap.get? _ k).getD _)
        rw [hg]
        exact hT2 k hkk

/-! ## Entries of a file -/

theorem agrees_append_left {ar a b : Archive} (h : Agrees ar (a ++ b)) : Agrees ar a := by
  intro e he
  rw [h e (List.mem_append_left _ he)]
  cases hg : getNamedFile a e.1 with
  | ok v => exact getNamedFile_mem_append hg
  | err =>
    exfalso
    have : ∀ l : Archive, e ∈ l → getNamedFile l e.1 ≠ Res.err := by
      intro l
      induction l with
      | nil => simp
      | cons q qs ih =>
        intro hm hr
        obtain ⟨n, v⟩ := q
        rw [getNamedFile] at hr
        split at hr
        · cases hr
        · rename_i hne
          rcases List.mem_cons.1 hm with rfl | hm
          · exact hne rfl
          · exact ih hm hr
    exact this a he hg
  | panic =>
    exfalso
    have : ∀ l : Archive, ∀ k, getNamedFile l k ≠ Res.panic := by
      intro l k
      induction l with
      | nil => intro h; cases h
      | cons q qs ih =>
        obtain ⟨n, v⟩ := q
        rw [getNamedFile]
        split
        · intro h; cases h
        · exact ih
    exact this a _ hg

theorem agrees_append_right {ar a b : Archive} (h : Agrees ar (a ++ b)) (hd : ∀ p ∈ a, ∀ q ∈ b, p.1 ≠ q.1) :
    Agrees ar b := by
  intro e he
  rw [h e (List.mem_append_right _ he), getNamedFile_append_right fun p hp => hd p hp e he]

theorem agrees_self (pre es : Archive) (h : ∀ p ∈ pre, ∀ q ∈ es, p.1 ≠ q.1) : Agrees (pre ++ es) es :=
  fun e he => getNamedFile_append_right fun p hp => h p hp e he

theorem getNamedFile_eq_of_mem {ar es : Archive} (h : Agrees ar es) {k : String} {v : Payload}
    (hk : getNamedFile es k = Res.ok v) : getNamedFile ar k = Res.ok v := by
  have : ∃ e ∈ es, e.1 = k := by
    clear h
    induction es with
    | nil => cases hk
    | cons q qs ih =>
      obtain ⟨n, p⟩ := q
      rw [getNamedFile] at hk
      split at hk
      · exact ⟨(n, p), by simp, ‹_›⟩
      · obtain ⟨e, he, hek⟩ := ih hk
        exact ⟨e, by simp [he], hek⟩
  obtain ⟨e, he, rfl⟩ := this
  rw [h e he, hk]

theorem tarPrefix_tree_ne (pre : String) : tarPrefix pre "tree" ≠ tarPrefix pre "treeClassAttr" := by
  intro h
  exact absurd (tarPrefix_inj _ _ _ h) (by decide)

/-- The two entries of a tree. -/
def treeEntries (pre : String) (j : Json) (nilVals : Bool) (cls : AttrBody) : Archive :=
  [(tarPrefix pre "tree", .json j), (tarPrefix pre "treeClassAttr", .json (attrToJson nilVals cls))]

theorem saveTree_eq (S : SaveEnv) (info : List String → LeafInfo) (t : Tree) (cls : AttrBody) (j : Json)
    (hj : treeToJson S info t [] = Res.ok j) (w : Writer) (hw : w.closed = false) (pre : String) :
    saveTree S info t cls w pre = Res.ok ⟨w.entries ++ treeEntries pre j S.nilVals cls, false⟩ := by
  simp [saveTree, hj, Writer.write, hw, writeForKey, treeEntries]

theorem loadTree_eq (L : LoadEnv) (S : SaveEnv) (hL : L.viaFloat = S.viaFloat) (cls : AttrBody)
    (hc : AttrKept S.nilVals S.viaFloat cls) (j : Json) (t' : Tree) (ht : treeOfJson L (j.depth + 1) [] j = Res.ok t')
    (pre : String) (ar : Archive) (ha : Agrees ar (treeEntries pre j S.nilVals cls)) :
    loadTree L ar pre = Res.ok (t', cls) := by
  have h1 : getNamedFile ar (tarPrefix pre "tree") = Res.ok (.json j) :=
    getNamedFile_eq_of_mem ha (by simp [treeEntries, getNamedFile])
  have h2 : getNamedFile ar (tarPrefix pre "treeClassAttr") = Res.ok (.json (attrToJson S.nilVals cls)) :=
    getNamedFile_eq_of_mem ha (by simp [treeEntries, getNamedFile, tarPrefix_tree_ne])
  have h3 := attrKept_roundtrip hc
  simp [loadTree, h1, ht, getAttributeForKey, h2, hL, h3]

theorem readStub_eq (name version : String) (params : Json) (es : Archive) :
    readStub (classifierStub (metadataJson name version params) ++ es) =
      Res.ok (classifierStub (metadataJson name version params) ++ es) := by
  simp [readStub, classifierStub, getNamedFile, readMetadataAt, tarPrefix, metadataJson, Json.field]

theorem treeToJson_ne_panic (S : SaveEnv) (info : List String → LeafInfo) (t : Tree) (path : List String) :
    treeToJson S info t path ≠ Res.panic := by
  have hr : ∀ r, ruleToJson S r ≠ Res.panic := by
    intro r
    rcases r with _ | _ | r
    · intro h; cases h
    · intro h; cases h
    · rw [ruleToJson]; split <;> (intro h; cases h)
  have hm : ∀ {α β : Type} (f : α → Res β) (l : List α), (∀ a ∈ l, f a ≠ Res.panic) → mapRes f l ≠ Res.panic := by
    intro α β f l
    induction l with
    | nil => intro _ h; cases h
    | cons a as ih =>
      intro h
      rw [mapRes]
      have ha := h a (by simp)
      have has := ih fun b hb => h b (by simp [hb])
      cases hfa : f a with
      | panic => exact absurd hfa ha
      | err => intro hh; cases hh
      | ok b =>
        rw [Res.bind_ok]
        cases hfs : mapRes f as with
        | panic => exact absurd hfs has
        | err => intro hh; cases hh
        | ok bs => intro hh; cases hh
  induction t generalizing path with
  | leaf d c =>
    rw [treeToJson]
    cases h : ruleToJson S (info path).rule with
    | panic => exact absurd h (hr _)
    | err => intro hh; cases hh
    | ok b => intro hh; cases hh
  | split d c r keys child ih =>
    rw [treeToJson]
    have h1 := hm (fun k => (treeToJson S info (child k) (path ++ [k])).map fun j => (k, j)) keys (by
      intro k _
      have := ih k (path ++ [k])
      cases h : treeToJson S info (child k) (path ++ [k]) with
      | panic => exact absurd h this
      | err => intro hh; cases hh
      | ok b => intro hh; cases hh)
    cases h2 : mapRes (fun k => (treeToJson S info (child k) (path ++ [k])).map fun j => (k, j)) keys with
    | panic => exact absurd h2 h1
    | err => intro hh; cases hh
    | ok ch =>
      rw [Res.bind_ok]
      cases h : ruleToJson S (some (some r)) with
      | panic => exact absurd h (hr _)
      | err => intro hh; cases hh
      | ok b => intro hh; cases hh

theorem treeToJson_finite (S : SaveEnv) (info : List String → LeafInfo) (t : Tree) (path : List String) (j : Json)
    (h : treeToJson S info t path = Res.ok j) : t.AllRules fun r => S.fin r.val = true := by
  induction t generalizing path j with
  | leaf d c => trivial
  | split d c r keys child ih =>
    rw [treeToJson, Res.bind_eq_ok] at h
    obtain ⟨ch, h1, h⟩ := h
    obtain ⟨rj, h2, _⟩ := Res.map_eq_ok.1 h
    refine ⟨?_, ?_⟩
    · rw [ruleToJson] at h2
      split at h2
      · assumption
      · cases h2
    · intro k hk
      rw [mapRes_eq_ok] at h1
      obtain ⟨i, hi, rfl⟩ := List.getElem_of_mem hk
      have hi' : i < ch.length := by rw [← h1.length_eq]; exact hi
      obtain ⟨jk, hjk, _⟩ := Res.map_eq_ok.1 (h1.get hi hi')
      exact ih _ _ _ hjk

end Golearn
