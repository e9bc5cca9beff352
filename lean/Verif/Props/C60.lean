import Verif.Proofs.Convert
import Verif.Props.C33
import Verif.Proofs.ConvertNew

/-! # C60: one-hot conversion sets exactly one output -/

namespace Golearn

/-- The binary filter: every categorical column that was added to it has one output for at most two values, and otherwise one for
each value; exactly the output of the value is one. -/
theorem C60_binary (fresh : Nat → Nat) (attrs : List Attr) (hnd : attrs.Nodup) (a : Attr) (ha : a ∈ attrs) (name : String)
    (vals : List String) (hbody : a.body = .cat name vals) (hv : vals.Nodup) (hlen : vals.length ≤ 2 ^ 64) :
    if vals.length ≤ 2 then SingleOutput (Conv.binary fresh attrs) a (.bin name) vals [1#8] [0#8]
    else OneHotOutputs (Conv.binary fresh attrs) a (fun v => .bin (name ++ "_" ++ v)) vals [1#8] [0#8] := by
  apply oneHot_spec (trains_binary fresh) _ [1#8] [0#8] Conv.transformBinary _ attrs hnd a ha name vals hbody hv hlen
  · intro p q s t
    simp only [Attr.equals]
    by_cases h : s = t
    · simp [h]
    · simp [h, Ne.symm h]
  · intro c b n raw hc
    obtain ⟨p, x⟩ := b
    cases x <;> simp_all [Attr.isCat, Conv.transformBinary]

/-- The float filter: the same, with the numbers 1 and 0. -/
theorem C60_float (fresh : Nat → Nat) (attrs : List Attr) (hnd : attrs.Nodup) (a : Attr) (ha : a ∈ attrs) (name : String)
    (vals : List String) (hbody : a.body = .cat name vals) (hv : vals.Nodup) (hlen : vals.length ≤ 2 ^ 64) :
    if vals.length ≤ 2 then SingleOutput (Conv.float fresh attrs) a (.float name 2) vals (packU64 f64One) (packU64 0#64)
    else OneHotOutputs (Conv.float fresh attrs) a (fun v => .float (name ++ "_" ++ v) 2) vals (packU64 f64One) (packU64 0#64) := by
  apply oneHot_spec (trains_float fresh) _ (packU64 f64One) (packU64 0#64) Conv.transformFloat _ attrs hnd a ha name vals hbody hv hlen
  · intro p q s t
    simp only [Attr.equals]
    by_cases h : s = t
    · simp [h]
    · simp [h]
  · intro c b n raw hc
    obtain ⟨p, x⟩ := b
    cases x <;> simp_all [Attr.isCat, Conv.transformFloat]

/-- The outputs of both filters, in order: those of the first column, then those of the second, and so on. Columns of the wanted type are kept. -/
theorem C60_columns (fresh : Nat → Nat) (attrs : List Attr) :
    (Conv.binary fresh attrs).attrs.map (fun p => (p.old, p.new.body)) =
      attrs.flatMap (fun a => (outputBodies .bin Attr.isBin a).map fun b => (a, b)) ∧
    (Conv.float fresh attrs).attrs.map (fun p => (p.old, p.new.body)) =
      attrs.flatMap (fun a => (outputBodies (fun n => .float n 2) Attr.isFloat a).map fun b => (a, b)) := by
  constructor
  · exact (keeps_binary fresh).columns attrs Conv.empty 0
  · exact (keeps_float fresh).columns attrs Conv.empty 0

/-- All outputs are attributes of their own: no two are the same object. -/
theorem C60_distinct (fresh : Nat → Nat) (hf : Function.Injective fresh) (attrs : List Attr) (hnd : (attrs.map Attr.ptr).Nodup)
    (hnew : ∀ a ∈ attrs, ∀ i, a.ptr ≠ fresh i) :
    ((Conv.binary fresh attrs).attrs.map fun p => p.new.ptr).Nodup ∧ ((Conv.float fresh attrs).attrs.map fun p => p.new.ptr).Nodup := by
  constructor
  · exact (keeps_binary fresh).distinct hf attrs hnd hnew
  · exact (keeps_float fresh).distinct hf attrs hnd hnew

example : ((Conv.binary (fun i => 10 + i) [⟨0, .cat "x" ["p", "q", "r"]⟩, ⟨1, .float "y" 2⟩, ⟨2, .bin "z"⟩, ⟨3, .cat "u" ["a", "b"]⟩]).attrs.map
    fun p => p.new.ptr) = [10, 11, 12, 13, 2, 14] := by decide +kernel

/-- Three values: the second output is set for the second value. -/
example : let a : Attr := ⟨0, .cat "x" ["p", "q", "r"]⟩
    let f := Conv.binary (fun i => 10 + i) [a]
    (outputs f.attrs a).map Attr.body = [.bin "x_p", .bin "x_q", .bin "x_r"] ∧
    (outputs f.attrs a).map (fun n => f.transform a n (stored 1)) = [.ok [0#8], .ok [1#8], .ok [0#8]] := by decide +kernel

/-- What a data set must satisfy to be converted: the filter was given columns of it, each once; stored values are in range; names after
conversion are distinct, and differ from those of the columns that are not converted. -/
structure Convertible (src : Grid) (n : Nat) (attrs : List Attr) (f : Filter) : Prop where
  typed : src.typed n
  nodup : attrs.Nodup
  known : ∀ a ∈ attrs, a ∈ src.allAttributes
  values : ∀ a ∈ attrs, ∀ name vals, a.body = .cat name vals → vals.Nodup ∧ vals.length ≤ 2 ^ 64 ∧
    ∀ r, r < n → ∃ i, i < vals.length ∧ src.cell a r = stored i
  names : (f.attrs.map fun p => p.new.name).Nodup
  others : ∀ a ∈ src.allAttributes, a ∉ attrs → ∀ p ∈ f.attrs, p.new.name ≠ a.name

/-- The filters then fit the data set (in the sense of C33). -/
theorem C60_fits (fresh : Nat → Nat) (src : Grid) (n : Nat) (attrs : List Attr) :
    (Convertible src n attrs (Conv.binary fresh attrs) → FilterFits src (Conv.binary fresh attrs) n) ∧
    (Convertible src n attrs (Conv.float fresh attrs) → FilterFits src (Conv.float fresh attrs) n) := by
  constructor
  · intro C
    apply conv_fits (trains_binary fresh) _ _ [1#8] [0#8] Conv.transformBinary _ _ src n C.typed attrs C.nodup C.known C.values
      C.names C.others
    · intro p q s t
      simp only [Attr.equals]
      by_cases h : s = t
      · simp [h]
      · simp [h, Ne.symm h]
    · intro p s; rfl
    · intro c b n raw hc
      obtain ⟨p, x⟩ := b
      cases x <;> simp_all [Attr.isCat, Conv.transformBinary]
    · intro c b m raw hc hw
      obtain ⟨p, x⟩ := b
      cases x with
      | cat _ _ => simp [Attr.isCat] at hc
      | bin _ => exact ⟨raw, rfl⟩
      | float nm pr =>
        simp only [wellFormed, Attr.isBin] at hw
        obtain ⟨v, hv, _⟩ := C01_pack_unpack raw (by simpa using hw)
        exact ⟨_, by simp [Conv.transformBinary, hv]; rfl⟩
  · intro C
    apply conv_fits (trains_float fresh) _ _ (packU64 f64One) (packU64 0#64) Conv.transformFloat _ _ src n C.typed attrs C.nodup
      C.known C.values C.names C.others
    · intro p q s t
      simp only [Attr.equals]
      by_cases h : s = t
      · simp [h]
      · simp [h]
    · intro p s; rfl
    · intro c b n raw hc
      obtain ⟨p, x⟩ := b
      cases x <;> simp_all [Attr.isCat, Conv.transformFloat]
    · intro c b m raw hc hw
      obtain ⟨p, x⟩ := b
      cases x with
      | cat _ _ => simp [Attr.isCat] at hc
      | float _ _ => exact ⟨raw, rfl⟩
      | bin nm =>
        simp only [wellFormed, Attr.isBin] at hw
        rcases hw with rfl | rfl
        · exact ⟨_, rfl⟩
        · exact ⟨_, rfl⟩

/-- The claim as seen through the filtered data set: in every row of it, the outputs of a column of more than two values show `one` for the
value of the row and `zero` otherwise. -/
def OneHotInGrid (src : Grid) (n : Nat) (f : Filter) (a : Attr) (vals : List String) (one zero : Bytes) : Prop :=
  (outputs f.attrs a).length = vals.length ∧
  ∀ r, r < n → ∀ i, i < vals.length → src.cell a r = stored i → ∀ (j : Nat) (m : Attr), (outputs f.attrs a)[j]? = some m →
    ∃ s, (Grid.newFiltered src f).getAttribute m = Res.ok s ∧
      (Grid.newFiltered src f).get s r = Res.ok (if i = j then one else zero)

/-- It holds for both filters if names stay distinct. Missing: names that collide, for which it is false (`C60_collision`). -/
theorem C60_grid_partial (fresh : Nat → Nat) (src : Grid) (n : Nat) (P : src.Presents n) (hd : src.distinct) (attrs : List Attr)
    (a : Attr) (ha : a ∈ attrs) (name : String) (vals : List String) (hbody : a.body = .cat name vals) (hl : 2 < vals.length) :
    (Convertible src n attrs (Conv.binary fresh attrs) → OneHotInGrid src n (Conv.binary fresh attrs) a vals [1#8] [0#8]) ∧
    (Convertible src n attrs (Conv.float fresh attrs) →
      OneHotInGrid src n (Conv.float fresh attrs) a vals (packU64 f64One) (packU64 0#64)) := by
  have key : ∀ (f : Filter) (body : String → AttrBody) (one zero : Bytes), FilterFits src f n →
      OneHotOutputs f a body vals one zero → OneHotInGrid src n f a vals one zero := by
    rintro f body one zero F ⟨ns, h1, h2, _, h4⟩
    refine ⟨by rw [h1, h2], ?_⟩
    intro r hr i hi hcell j m hm
    obtain ⟨_, _, _, _, hg⟩ := C33_get src n P hd f F
    have hmem : (⟨a, m⟩ : FAttr) ∈ f.attrs := of_mem_outputs (List.mem_of_getElem? hm)
    obtain ⟨s, hs, hread⟩ := hg _ hmem
    refine ⟨s, hs, ?_⟩
    obtain ⟨v, hv, ht⟩ := hread r hr
    rw [h1] at hm
    rw [hcell, h4 i hi j m hm, Res.ok.injEq] at ht
    rw [hv, ht]
  constructor
  · intro C
    obtain ⟨v1, v2, _⟩ := C.values a ha name vals hbody
    have h := C60_binary fresh attrs C.nodup a ha name vals hbody v1 v2
    rw [if_neg (by omega)] at h
    exact key _ _ _ _ ((C60_fits fresh src n attrs).1 C) h
  · intro C
    obtain ⟨v1, v2, _⟩ := C.values a ha name vals hbody
    have h := C60_float fresh attrs C.nodup a ha name vals hbody v1 v2
    rw [if_neg (by omega)] at h
    exact key _ _ _ _ ((C60_fits fresh src n attrs).2 C) h

section Witness
private def hX : Attr := ⟨0, .cat "x" ["y_z", "p", "q"]⟩
private def hY : Attr := ⟨1, .cat "x_y" ["z", "u", "v"]⟩
/-- One row, with the value `p` in column `x` and `z` in column `x_y`. -/
private def hOps : List Op := [.add hX, .add hY, .extend 1, .set 0 0 (stored 1), .set 1 0 (stored 0)]
private def hF : Filter := Conv.binary (fun i => 10 + i) [hX, hY]

/-- A name made of the attribute and the value can be made in two ways. Columns `x` with a value `y_z` and `x_y` with a value `z` both get
an output `x_y_z`; the data set then finds the first of the two for either. A row with the value `z` in column `x_y` is shown as
having no value there: all three outputs are zero. -/
theorem C60_collision : ∃ st, run 4096 hOps = Res.ok st ∧ (Grid.dense st.d).cell hY 0 = stored 0 ∧
    (mapRes (fun m => ((Grid.newFiltered (.dense st.d) hF).getAttribute m).bind fun s =>
      (Grid.newFiltered (.dense st.d) hF).get s 0) (outputs hF.attrs hY)) = Res.ok [[0#8], [0#8], [0#8]] ∧
    ¬ OneHotInGrid (.dense st.d) 1 hF hY ["z", "u", "v"] [1#8] [0#8] := by
  obtain ⟨st, h1, h⟩ : ∃ st, run 4096 hOps = Res.ok st ∧ (Grid.dense st.d).cell hY 0 = stored 0 ∧
      (mapRes (fun m => ((Grid.newFiltered (.dense st.d) hF).getAttribute m).bind fun s =>
        (Grid.newFiltered (.dense st.d) hF).get s 0) (outputs hF.attrs hY)) = Res.ok [[0#8], [0#8], [0#8]] ∧
      (((Grid.newFiltered (.dense st.d) hF).getAttribute ⟨13, .bin "x_y_z"⟩).bind fun s =>
        (Grid.newFiltered (.dense st.d) hF).get s 0) = Res.ok [0#8] := by
    refine ⟨_, rfl, ?_, ?_, ?_⟩
    all_goals decide +kernel
  refine ⟨st, h1, h.1, h.2.1, ?_⟩
  rintro ⟨_, k⟩
  obtain ⟨s, e1, e2⟩ := k 0 (by decide) 0 (by decide) h.1 0 ⟨13, .bin "x_y_z"⟩ (by decide +kernel)
  have h3 := h.2.2
  rw [e1, Res.bind_ok, e2] at h3
  revert h3
  decide

private def gX : Attr := ⟨0, .cat "x" ["p", "q", "r"]⟩
private def gY : Attr := ⟨1, .float "y" 2⟩
private def gOps : List Op := [.add gX, .add gY, .extend 2, .set 0 0 (stored 1), .set 0 1 (stored 2)]

/-- A data set that meets the conditions of `C60_grid_partial`: a column of three values and a number, both converted. -/
example : ∃ st, run 4096 gOps = Res.ok st ∧
    Convertible (.dense st.d) 2 [gX, gY] (Conv.binary (fun i => 10 + i) [gX, gY]) := by
  obtain ⟨st, h1, h2, h3, h4⟩ : ∃ st, run 4096 gOps = Res.ok st ∧ st.d.allAttributes = [gX, gY] ∧
      (Grid.dense st.d).cell gX 0 = stored 1 ∧ (Grid.dense st.d).cell gX 1 = stored 2 := by
    refine ⟨_, rfl, ?_, ?_, ?_⟩
    all_goals decide +kernel
  have D := denseOK_run (pg := 4096) (ops := gOps) (by decide) h1 (by decide)
  refine ⟨st, h1, D.typed, by decide, ?_, ?_, by decide +kernel, ?_⟩
  · intro a ha
    show a ∈ st.d.allAttributes
    rw [h2]
    exact ha
  · intro a ha name vals hb
    rcases List.mem_cons.1 ha with rfl | ha
    · cases hb
      refine ⟨by decide, by decide, ?_⟩
      intro r hr
      match r, hr with
      | 0, _ => exact ⟨1, by decide, h3⟩
      | 1, _ => exact ⟨2, by decide, h4⟩
    · rw [List.mem_singleton] at ha
      subst ha
      cases hb
  · intro a ha hn
    exfalso
    apply hn
    have ha' : a ∈ st.d.allAttributes := ha
    rw [h2] at ha'
    exact ha'
end Witness

end Golearn
