import Verif.Spec.Fill
import Verif.Proofs.Group

/-! # Goroutines that fill one table -/

namespace Golearn

/-! ## What calls do to the bytes -/

/-- The bytes after a call. -/
def opApply (g : Group) (m : Bytes) : CellOp → Bytes
  | .set col row v =>
    match g.kind with
    | .fixed _ => Group.splice m (g.offset col row) v
    | .binary => m.set (g.offset col row) (bitPut (m.getD (g.offset col row) 0#8) col (decide ((v.headD 0#8).toNat > 0)))
  | _ => m

/-- What a call reads. -/
def opOut (g : Group) (m : Bytes) : CellOp → List Bytes
  | .get col row =>
    match g.kind with
    | .fixed size => [(m.drop (g.offset col row)).take size]
    | .binary => [bitTest (m.getD (g.offset col row) 0#8) col]
  | _ => []

/-- The bytes after some calls. -/
def opsApply (g : Group) : Bytes → List CellOp → Bytes
  | m, [] => m
  | m, x :: rest => opsApply g (opApply g m x) rest

/-- What some calls read. -/
def opsOut (g : Group) : Bytes → List CellOp → List Bytes
  | _, [] => []
  | m, x :: rest => opOut g m x ++ opsOut g (opApply g m x) rest

/-- How many bytes a cell takes. -/
def cellWidth (g : Group) : Nat :=
  match g.kind with
  | .fixed size => size
  | .binary => 1

/-- The bytes of a cell. -/
def footOf (g : Group) (c : Nat × Nat) (b : Nat) : Prop := g.offset c.1 c.2 ≤ b ∧ b < g.offset c.1 c.2 + cellWidth g

/-- The bytes of a call. -/
def opFoot (g : Group) (x : CellOp) (b : Nat) : Prop := ∃ c, x.cell = some c ∧ footOf g c b

/-- The bytes that a call writes. -/
def opWrites (g : Group) (x : CellOp) (b : Nat) : Prop := ∃ col row v, x = .set col row v ∧ footOf g (col, row) b

/-- A call has its bytes in the storage, and a value of the right length. -/
def opOk (g : Group) (len : Nat) : CellOp → Prop
  | .set col row v => acceptable g.kind v ∧ g.offset col row + cellWidth g ≤ len
  | .get col row => g.offset col row + cellWidth g ≤ len
  | .extend _ => False

/-- Two storages have the same bytes there. -/
def agreeOn (F : Nat → Prop) (m m' : Bytes) : Prop := ∀ b, F b → m[b]? = m'[b]?

theorem writes_foot {g : Group} {x : CellOp} {b : Nat} (h : opWrites g x b) : opFoot g x b := by
  obtain ⟨col, row, v, rfl, h⟩ := h
  exact ⟨_, rfl, h⟩

theorem opApply_length {g : Group} {m : Bytes} {x : CellOp} (hx : opOk g m.length x) : (opApply g m x).length = m.length := by
  cases x with
  | set col row v =>
    cases hk : g.kind with
    | fixed size =>
      simp only [opOk, hk, acceptable, cellWidth] at hx
      simp only [opApply, hk]
      exact splice_length _ _ _ (by omega)
    | binary => simp [opApply, hk]
  | get col row => rfl
  | extend add => rfl

/-- A call changes only the bytes of its cell. -/
theorem opApply_other {g : Group} {m : Bytes} {x : CellOp} (hx : opOk g m.length x) {b : Nat} (hb : ¬ opWrites g x b) :
    (opApply g m x)[b]? = m[b]? := by
  cases x with
  | set col row v =>
    have hb' : ¬ footOf g (col, row) b := fun h => hb ⟨col, row, v, rfl, h⟩
    cases hk : g.kind with
    | fixed size =>
      simp only [opOk, hk, acceptable, cellWidth] at hx
      simp only [footOf, cellWidth, hk] at hb'
      simp only [opApply, hk]
      rw [splice_getElem? _ _ _ (by omega), if_neg (by omega)]
    | binary =>
      simp only [footOf, cellWidth, hk] at hb'
      simp only [opApply, hk]
      rw [List.getElem?_set_ne (by omega)]
  | get col row => rfl
  | extend add => rfl

/-- What a call does to its bytes depends on them alone. -/
theorem opApply_agree {g : Group} {m m' : Bytes} {x : CellOp} {F : Nat → Prop} (hl : m.length = m'.length) (hx : opOk g m.length x)
    (hF : ∀ b, opFoot g x b → F b) (h : agreeOn F m m') : agreeOn F (opApply g m x) (opApply g m' x) := by
  intro b hb
  cases x with
  | set col row v =>
    cases hk : g.kind with
    | fixed size =>
      simp only [opOk, hk, acceptable, cellWidth] at hx
      simp only [opApply, hk]
      rw [splice_getElem? _ _ _ (by omega), splice_getElem? _ _ _ (by omega), h b hb]
    | binary =>
      simp only [opOk, hk, cellWidth] at hx
      have e : m.getD (g.offset col row) 0#8 = m'.getD (g.offset col row) 0#8 := by
        have := h _ (hF (g.offset col row) ⟨_, rfl, by simp only [footOf, cellWidth, hk]; omega⟩)
        rw [List.getD_eq_getElem?_getD, List.getD_eq_getElem?_getD, this]
      simp only [opApply, hk]
      rw [e, List.getElem?_set, List.getElem?_set, h b hb, hl]
  | get col row => exact h b hb
  | extend add => exact h b hb

theorem opOut_agree {g : Group} {m m' : Bytes} {x : CellOp} {F : Nat → Prop} (hF : ∀ b, opFoot g x b → F b) (h : agreeOn F m m') :
    opOut g m x = opOut g m' x := by
  cases x with
  | get col row =>
    cases hk : g.kind with
    | fixed size =>
      simp only [opOut, hk]
      rw [window_ext m m' _ _ fun i h1 h2 => h i (hF i ⟨_, rfl, by simp only [footOf, cellWidth, hk]; omega⟩)]
    | binary =>
      have := h _ (hF (g.offset col row) ⟨_, rfl, by simp only [footOf, cellWidth, hk]; omega⟩)
      simp only [opOut, hk]
      rw [List.getD_eq_getElem?_getD, List.getD_eq_getElem?_getD, this]
  | set col row v => rfl
  | extend add => rfl

theorem opsApply_length {g : Group} : ∀ {m : Bytes} {p : List CellOp}, (∀ x ∈ p, opOk g m.length x) → (opsApply g m p).length = m.length
  | m, [], _ => rfl
  | m, x :: p, h => by
    have e := opApply_length (h x List.mem_cons_self)
    rw [opsApply, opsApply_length (fun y hy => by rw [e]; exact h y (List.mem_cons_of_mem _ hy)), e]

theorem opsApply_other {g : Group} {b : Nat} : ∀ {m : Bytes} {p : List CellOp}, (∀ x ∈ p, opOk g m.length x) →
    (∀ x ∈ p, ¬ opWrites g x b) → (opsApply g m p)[b]? = m[b]?
  | m, [], _, _ => rfl
  | m, x :: p, h, hb => by
    have hx := h x List.mem_cons_self
    rw [opsApply, opsApply_other (fun y hy => by rw [opApply_length hx]; exact h y (List.mem_cons_of_mem _ hy))
      (fun y hy => hb y (List.mem_cons_of_mem _ hy)), opApply_other hx (hb x List.mem_cons_self)]

theorem opsApply_agree {g : Group} {F : Nat → Prop} : ∀ {m m' : Bytes} {p : List CellOp}, m.length = m'.length →
    (∀ x ∈ p, opOk g m.length x) → (∀ x ∈ p, ∀ b, opFoot g x b → F b) → agreeOn F m m' →
    agreeOn F (opsApply g m p) (opsApply g m' p) ∧ opsOut g m p = opsOut g m' p
  | m, m', [], _, _, _, h => ⟨h, rfl⟩
  | m, m', x :: p, hl, hx, hF, h => by
    have h1 := hx x List.mem_cons_self
    have h2 : opOk g m'.length x := hl ▸ h1
    have hf := hF x List.mem_cons_self
    have ih := opsApply_agree (g := g) (F := F) (m := opApply g m x) (m' := opApply g m' x) (p := p)
      (by rw [opApply_length h1, opApply_length h2, hl])
      (fun y hy => by rw [opApply_length h1]; exact hx y (List.mem_cons_of_mem _ hy))
      (fun y hy => hF y (List.mem_cons_of_mem _ hy)) (opApply_agree hl h1 hf h)
    exact ⟨ih.1, by rw [opsOut, opsOut, opOut_agree hf h, ih.2]⟩

theorem opsApply_append {g : Group} : ∀ (m : Bytes) (p q : List CellOp), opsApply g m (p ++ q) = opsApply g (opsApply g m p) q
  | _, [], _ => rfl
  | _, _ :: p, q => opsApply_append _ p q

/-! ## A call that is under way -/

/-- The bytes once the call has returned, if nobody else does anything. -/
def pcFinish (m : Bytes) : CellPc → Bytes
  | .copy _ off rest => Group.splice m off rest
  | .load _ off col on => m.set off (bitPut (m.getD off 0#8) col on)
  | .store _ off b => m.set off b
  | _ => m

/-- What the call reads. -/
def pcOut (m : Bytes) : CellPc → List Bytes
  | .view _ off n got => [got ++ (m.drop off).take n]
  | .test _ off col => [bitTest (m.getD off 0#8) col]
  | _ => []

/-- The call is on the first array, in the storage, and concerns bytes of `F` alone, of which it writes those in `W`. -/
def pcOk (W F : Nat → Prop) (len : Nat) : CellPc → Prop
  | .idle => True
  | .copy a off rest => a = 0 ∧ off + rest.length ≤ len ∧ ∀ b, off ≤ b → b < off + rest.length → W b
  | .load a off _ _ => a = 0 ∧ off < len ∧ W off
  | .store a off _ => a = 0 ∧ off < len ∧ W off
  | .view a off n _ => a = 0 ∧ off + n ≤ len ∧ ∀ b, off ≤ b → b < off + n → F b
  | .test a off _ => a = 0 ∧ off < len ∧ F off
  | .swap _ => False

theorem pcFinish_length {W F : Nat → Prop} {m : Bytes} {pc : CellPc} (h : pcOk W F m.length pc) : (pcFinish m pc).length = m.length := by
  cases pc with
  | copy a off rest => exact splice_length _ _ _ h.2.1
  | load a off col on => simp [pcFinish]
  | store a off b => simp [pcFinish]
  | _ => rfl

theorem pcFinish_agree {W F : Nat → Prop} (hW : ∀ b, W b → F b) {m m' : Bytes} {pc : CellPc} (hl : m.length = m'.length)
    (h : pcOk W F m.length pc) (ha : agreeOn F m m') : agreeOn F (pcFinish m pc) (pcFinish m' pc) ∧ pcOut m pc = pcOut m' pc := by
  cases pc with
  | idle => exact ⟨ha, rfl⟩
  | copy a off rest =>
    refine ⟨fun b hb => ?_, rfl⟩
    simp only [pcFinish]
    rw [splice_getElem? _ _ _ h.2.1, splice_getElem? _ _ _ (hl ▸ h.2.1), ha b hb]
  | load a off col on =>
    have e : m.getD off 0#8 = m'.getD off 0#8 := by
      rw [List.getD_eq_getElem?_getD, List.getD_eq_getElem?_getD, ha off (hW off h.2.2)]
    refine ⟨fun b hb => ?_, rfl⟩
    simp only [pcFinish]
    rw [e, List.getElem?_set, List.getElem?_set, ha b hb, hl]
  | store a off x =>
    refine ⟨fun b hb => ?_, rfl⟩
    simp only [pcFinish]
    rw [List.getElem?_set, List.getElem?_set, ha b hb, hl]
  | view a off n got =>
    refine ⟨ha, ?_⟩
    simp only [pcOut]
    rw [window_ext m m' _ _ fun i h1 h2 => ha i (h.2.2 i h1 h2)]
  | test a off col =>
    refine ⟨ha, ?_⟩
    simp only [pcOut]
    rw [List.getD_eq_getElem?_getD, List.getD_eq_getElem?_getD, ha off h.2.2]
  | swap new => exact h.elim

/-- The bytes once a goroutine has made all its calls, if nobody else does anything. -/
def fillerEnd (g : Group) (m : Bytes) (w : Filler) : Bytes := opsApply g (pcFinish m w.pc) w.todo

/-- What it has then read. -/
def fillerOut (g : Group) (m : Bytes) (w : Filler) : List Bytes := w.got ++ pcOut m w.pc ++ opsOut g (pcFinish m w.pc) w.todo

/-- The goroutine is in the middle of the calls `p`. -/
structure FillerOk (g : Group) (p : List CellOp) (len : Nat) (w : Filler) : Prop where
  sub : ∀ x ∈ w.todo, x ∈ p
  ok : ∀ x ∈ p, opOk g len x
  pc : pcOk (fun b => ∃ x ∈ p, opWrites g x b) (fun b => ∃ x ∈ p, opFoot g x b) len w.pc

theorem filler_agree {g : Group} {p : List CellOp} {m m' : Bytes} {w : Filler} (h : FillerOk g p m.length w) (hl : m.length = m'.length)
    (ha : agreeOn (fun b => ∃ x ∈ p, opFoot g x b) m m') :
    agreeOn (fun b => ∃ x ∈ p, opFoot g x b) (fillerEnd g m w) (fillerEnd g m' w) ∧ fillerOut g m w = fillerOut g m' w := by
  have h1 := pcFinish_agree (fun b ⟨x, hx, hb⟩ => ⟨x, hx, writes_foot hb⟩) hl h.pc ha
  have e1 := pcFinish_length h.pc
  have e2 := pcFinish_length (m := m') (hl ▸ h.pc)
  have h2 := opsApply_agree (g := g) (p := w.todo) (by rw [e1, e2, hl]) (fun x hx => by rw [e1]; exact h.ok x (h.sub x hx))
    (fun x hx b hb => ⟨x, h.sub x hx, hb⟩) h1.1
  exact ⟨h2.1, by rw [fillerOut, fillerOut, h1.2, h2.2]⟩

theorem splice_cons {m : Bytes} {off : Nat} {b : Byte} {rest : Bytes} (h : off + (b :: rest).length ≤ m.length) :
    Group.splice (m.set off b) (off + 1) rest = Group.splice m off (b :: rest) := by
  simp only [List.length_cons] at h
  apply List.ext_getElem?
  intro i
  rw [splice_getElem? _ _ _ (by simp; omega), splice_getElem? _ _ _ (by simp; omega), List.getElem?_set]
  by_cases hi : i = off
  · subst hi
    rw [if_neg (by omega), if_pos rfl, if_pos (by omega), if_pos (by simp)]
    simp
  · rw [if_neg (c := off = i) (by omega)]
    by_cases h2 : off ≤ i ∧ i < off + (b :: rest).length
    · simp only [List.length_cons] at h2
      rw [if_pos (by omega), if_pos (by simp; omega)]
      have : i - off = (i - (off + 1)) + 1 := by omega
      rw [this, List.getElem?_cons_succ]
    · rw [if_neg h2]
      simp only [List.length_cons] at h2
      rw [if_neg (by omega)]

theorem splice_nil (m : Bytes) (off : Nat) : Group.splice m off [] = m := by
  simp [Group.splice]

theorem put_first (m : Bytes) (off : Nat) (b : Byte) : FillMem.put ⟨[m], 0⟩ 0 off b = ⟨[m.set off b], 0⟩ := rfl

/-- A step of a goroutine goes on with its calls, writes only bytes of what it sets, and does not change how it will end. -/
theorem fillerStep_ok {g : Group} {p : List CellOp} {m : Bytes} {w : Filler} (h : FillerOk g p m.length w) :
    ∃ m' w', fillerStep g ⟨[m], 0⟩ w = some (⟨[m'], 0⟩, w') ∧ m'.length = m.length ∧ FillerOk g p m.length w' ∧
      (∀ b, (¬ ∃ x ∈ p, opWrites g x b) → m'[b]? = m[b]?) ∧ fillerEnd g m' w' = fillerEnd g m w ∧ fillerOut g m' w' = fillerOut g m w := by
  obtain ⟨todo, pc, got⟩ := w
  obtain ⟨hsub, hok, hpc⟩ := h
  have ha : FillMem.alloc ⟨[m], 0⟩ = m := rfl
  cases pc with
  | idle =>
    cases todo with
    | nil => exact ⟨m, _, rfl, rfl, ⟨hsub, hok, hpc⟩, fun _ _ => rfl, rfl, rfl⟩
    | cons x rest =>
      have hx := hok x (hsub x List.mem_cons_self)
      have hsub' : ∀ y ∈ rest, y ∈ p := fun y hy => hsub y (List.mem_cons_of_mem _ hy)
      cases x with
      | set col row v =>
        have hm := hsub _ List.mem_cons_self
        cases hk : g.kind with
        | fixed size =>
          simp only [opOk, hk, acceptable, cellWidth] at hx
          refine ⟨m, ⟨rest, .copy 0 (g.offset col row) v, got⟩, ?_, rfl, ⟨hsub', hok, ⟨rfl, by omega, fun b h1 h2 => ?_⟩⟩, fun _ _ => rfl,
            ?_, ?_⟩
          · simp only [fillerStep, hk, ha]
            rw [if_pos ⟨hx.1, hx.2⟩]
          · exact ⟨_, hm, col, row, v, rfl, h1, by simp only [cellWidth, hk]; omega⟩
          · simp only [fillerEnd, pcFinish, opsApply, opApply, hk]
          · simp only [fillerOut, pcFinish, pcOut, opsOut, opApply, opOut, hk, List.nil_append]
        | binary =>
          simp only [opOk, hk, acceptable, cellWidth] at hx
          obtain ⟨v0, vs, rfl⟩ := List.exists_cons_of_ne_nil hx.1
          refine ⟨m, ⟨rest, .load 0 (g.offset col row) col (decide (v0.toNat > 0)), got⟩, ?_, rfl, ⟨hsub', hok, ⟨rfl, by omega, ?_⟩⟩,
            fun _ _ => rfl, ?_, ?_⟩
          · simp only [fillerStep, hk, ha]
            rw [if_pos (by omega)]
          · exact ⟨_, hm, col, row, _, rfl, Nat.le_refl _, by simp only [cellWidth, hk]; omega⟩
          · simp only [fillerEnd, pcFinish, opsApply, opApply, hk]
            rfl
          · simp only [fillerOut, pcFinish, pcOut, opsOut, opApply, opOut, hk, List.nil_append]
            rfl
      | get col row =>
        have hm := hsub _ List.mem_cons_self
        cases hk : g.kind with
        | fixed size =>
          simp only [opOk, hk, cellWidth] at hx
          refine ⟨m, ⟨rest, .view 0 (g.offset col row) size [], got⟩, ?_, rfl, ⟨hsub', hok, ⟨rfl, by omega, fun b h1 h2 => ?_⟩⟩,
            fun _ _ => rfl, ?_, ?_⟩
          · simp only [fillerStep, hk, ha]
            rw [if_pos hx]
          · exact ⟨_, hm, _, rfl, h1, by simp only [cellWidth, hk]; omega⟩
          · simp only [fillerEnd, pcFinish, opsApply, opApply]
          · simp only [fillerOut, pcFinish, pcOut, opsOut, opApply, opOut, hk, List.nil_append, List.append_nil, List.append_assoc]
        | binary =>
          simp only [opOk, hk, cellWidth] at hx
          refine ⟨m, ⟨rest, .test 0 (g.offset col row) col, got⟩, ?_, rfl, ⟨hsub', hok, ⟨rfl, by omega, ?_⟩⟩, fun _ _ => rfl, ?_, ?_⟩
          · simp only [fillerStep, hk, ha]
            rw [if_pos (by omega)]
          · exact ⟨_, hm, _, rfl, Nat.le_refl _, by simp only [cellWidth, hk]; omega⟩
          · simp only [fillerEnd, pcFinish, opsApply, opApply]
          · simp only [fillerOut, pcFinish, pcOut, opsOut, opApply, opOut, hk, List.append_nil, List.append_assoc]
      | extend add => exact hx.elim
  | copy a off rest =>
    obtain ⟨rfl, h2, h3⟩ := hpc
    cases rest with
    | nil =>
      refine ⟨m, ⟨todo, .idle, got⟩, rfl, rfl, ⟨hsub, hok, trivial⟩, fun _ _ => rfl, ?_, ?_⟩
      · simp only [fillerEnd, pcFinish, splice_nil]
      · simp only [fillerOut, pcFinish, pcOut, splice_nil]
    | cons b rest =>
      have hc := splice_cons h2
      simp only [List.length_cons] at h2 h3
      refine ⟨m.set off b, ⟨todo, .copy 0 (off + 1) rest, got⟩, rfl, by simp, ⟨hsub, hok, ⟨rfl, by omega, fun c h4 h5 => h3 c (by omega) (by omega)⟩⟩,
        fun c hc => ?_, ?_, ?_⟩
      · rw [List.getElem?_set_ne]
        rintro rfl
        exact hc (h3 _ (Nat.le_refl _) (by omega))
      · simp only [fillerEnd, pcFinish, hc]
      · simp only [fillerOut, pcFinish, pcOut, hc]
  | load a off col on =>
    obtain ⟨rfl, h2, h3⟩ := hpc
    refine ⟨m, ⟨todo, .store 0 off (bitPut (m.getD off 0#8) col on), got⟩, rfl, rfl, ⟨hsub, hok, ⟨rfl, h2, h3⟩⟩, fun _ _ => rfl, ?_, ?_⟩
    · simp only [fillerEnd, pcFinish]
    · simp only [fillerOut, pcFinish, pcOut]
  | store a off b =>
    obtain ⟨rfl, h2, h3⟩ := hpc
    refine ⟨m.set off b, ⟨todo, .idle, got⟩, rfl, by simp, ⟨hsub, hok, trivial⟩, fun c hc => ?_, ?_, ?_⟩
    · rw [List.getElem?_set_ne]
      rintro rfl
      exact hc h3
    · simp only [fillerEnd, pcFinish]
    · simp only [fillerOut, pcFinish, pcOut]
  | view a off n gt =>
    obtain ⟨rfl, h2, h3⟩ := hpc
    cases n with
    | zero =>
      refine ⟨m, ⟨todo, .idle, got ++ [gt]⟩, rfl, rfl, ⟨hsub, hok, trivial⟩, fun _ _ => rfl, ?_, ?_⟩
      · simp only [fillerEnd, pcFinish]
      · simp only [fillerOut, pcFinish, pcOut, List.take_zero, List.append_nil]
    | succ n =>
      have e : (m.drop off).take (n + 1) = m.getD off 0#8 :: (m.drop (off + 1)).take n := by
        rw [List.drop_eq_getElem_cons (by omega : off < m.length), List.take_succ_cons, List.getD_eq_getElem?_getD,
          List.getElem?_eq_getElem (by omega : off < m.length)]
        rfl
      refine ⟨m, ⟨todo, .view 0 (off + 1) n (gt ++ [m.getD off 0#8]), got⟩, rfl, rfl,
        ⟨hsub, hok, ⟨rfl, by omega, fun b h4 h5 => h3 b (by omega) (by omega)⟩⟩, fun _ _ => rfl, ?_, ?_⟩
      · simp only [fillerEnd, pcFinish]
      · simp only [fillerOut, pcFinish, pcOut, e, List.append_assoc, List.singleton_append]
  | test a off col =>
    obtain ⟨rfl, h2, h3⟩ := hpc
    refine ⟨m, ⟨todo, .idle, got ++ [bitTest (m.getD off 0#8) col]⟩, rfl, rfl, ⟨hsub, hok, trivial⟩, fun _ _ => rfl, ?_, ?_⟩
    · simp only [fillerEnd, pcFinish]
    · simp only [fillerOut, pcFinish, pcOut, List.append_nil]
  | swap new => exact hpc.elim

/-! ## All goroutines -/

/-- What the goroutines write is apart from what the others use. -/
def footsApart (g : Group) (progs : List (List CellOp)) : Prop :=
  ∀ (i j : Nat) (p q : List CellOp), i ≠ j → progs[i]? = some p → progs[j]? = some q → ∀ x ∈ p, ∀ y ∈ q, ∀ b, opWrites g x b → ¬ opFoot g y b

/-- Every goroutine will end as if it were alone, and no other bytes change. -/
structure FillInv (g : Group) (progs : List (List CellOp)) (st : FillSt) (m : Bytes) : Prop where
  mem : st.mem = ⟨[m], 0⟩
  len : m.length = g.alloc.length
  count : st.fillers.length = progs.length
  each : ∀ (i : Nat) (w : Filler) (p : List CellOp), st.fillers[i]? = some w → progs[i]? = some p → FillerOk g p g.alloc.length w ∧
    agreeOn (fun b => ∃ x ∈ p, opFoot g x b) (fillerEnd g m w) (opsApply g g.alloc p) ∧ fillerOut g m w = opsOut g g.alloc p
  rest : ∀ b, (∀ p ∈ progs, ∀ x ∈ p, ¬ opWrites g x b) → m[b]? = g.alloc[b]?

theorem fill_start_inv {g : Group} {progs : List (List CellOp)} (hok : ∀ p ∈ progs, ∀ x ∈ p, opOk g g.alloc.length x) :
    FillInv g progs (FillSt.start g progs) g.alloc where
  mem := rfl
  len := rfl
  count := by simp [FillSt.start]
  each := by
    intro i w p hw hp
    simp only [FillSt.start, List.getElem?_map, hp, Option.map_some, Option.some.injEq] at hw
    subst hw
    exact ⟨⟨fun _ h => h, hok p (List.mem_of_getElem? hp), trivial⟩, fun _ _ => rfl, rfl⟩
  rest := fun _ _ => rfl

theorem fill_step_inv {g : Group} {progs : List (List CellOp)} (hap : footsApart g progs) {st : FillSt} {m : Bytes} (h : FillInv g progs st m)
    (i : Nat) : ∃ st' m', st.step g i = some st' ∧ FillInv g progs st' m' := by
  cases hw : st.fillers[i]? with
  | none => exact ⟨st, m, by simp only [FillSt.step, hw], h⟩
  | some w =>
    have hi : i < st.fillers.length := (List.getElem?_eq_some_iff.1 hw).1
    have hi' : i < progs.length := h.count ▸ hi
    obtain ⟨p, hp⟩ : ∃ p, progs[i]? = some p := ⟨_, List.getElem?_eq_getElem hi'⟩
    obtain ⟨h1, h2, h3⟩ := h.each i w p hw hp
    rw [← h.len] at h1
    obtain ⟨m', w', e, hl, ho, hother, hend, hout⟩ := fillerStep_ok h1
    refine ⟨⟨⟨[m'], 0⟩, st.fillers.set i w'⟩, m', by simp only [FillSt.step, hw, h.mem, e], ?_⟩
    refine ⟨rfl, hl.trans h.len, by simp [h.count], ?_, fun b hb => ?_⟩
    · intro j u q hu hq
      by_cases hij : i = j
      · subst hij
        rw [List.getElem?_set_self hi] at hu
        injection hu with hu
        subst hu
        rw [hp] at hq
        injection hq with hq
        subst hq
        refine ⟨h.len ▸ ho, ?_, by rw [hout, h3]⟩
        rw [hend]
        exact h2
      · rw [List.getElem?_set_ne hij] at hu
        obtain ⟨k1, k2, k3⟩ := h.each j u q hu hq
        have hag : agreeOn (fun b => ∃ x ∈ q, opFoot g x b) m' m := by
          rintro b ⟨y, hy, hb⟩
          exact hother b fun ⟨x, hx, hxb⟩ => hap i j p q hij hp hq x hx y hy b hxb hb
        have := filler_agree (m := m') (m' := m) (w := u) (by rw [hl, h.len]; exact k1) hl hag
        exact ⟨k1, fun b hb => (this.1 b hb).trans (k2 b hb), this.2.trans k3⟩
    · rw [hother b fun ⟨x, hx, hxb⟩ => hb p (List.mem_of_getElem? hp) x hx hxb]
      exact h.rest b hb

theorem fill_runs_inv {g : Group} {progs : List (List CellOp)} (hap : footsApart g progs) : ∀ (sched : List Nat) {st : FillSt} {m : Bytes},
    FillInv g progs st m → ∃ st' m', st.runs g sched = some st' ∧ FillInv g progs st' m'
  | [], st, m, h => ⟨st, m, rfl, h⟩
  | i :: sched, st, m, h => by
    obtain ⟨st1, m1, e, h1⟩ := fill_step_inv hap h i
    obtain ⟨st2, m2, e2, h2⟩ := fill_runs_inv hap sched h1
    exact ⟨st2, m2, by rw [FillSt.runs, e]; exact e2, h2⟩

/-- The calls of all goroutines one after the other do to the bytes of one of them what its own calls do. -/
theorem flatten_agree {g : Group} {progs : List (List CellOp)} (hok : ∀ p ∈ progs, ∀ x ∈ p, opOk g g.alloc.length x)
    (hap : footsApart g progs) {i : Nat} {p : List CellOp} (hp : progs[i]? = some p) :
    agreeOn (fun b => ∃ x ∈ p, opFoot g x b) (opsApply g g.alloc progs.flatten) (opsApply g g.alloc p) := by
  have hi : i < progs.length := (List.getElem?_eq_some_iff.1 hp).1
  have hsplit : progs = progs.take i ++ p :: progs.drop (i + 1) := by
    have hpe : progs[i] = p := (List.getElem?_eq_some_iff.1 hp).2
    rw [← hpe, ← List.drop_eq_getElem_cons hi, List.take_append_drop]
  have hfl : progs.flatten = (progs.take i).flatten ++ (p ++ (progs.drop (i + 1)).flatten) := by
    have := congrArg List.flatten hsplit
    rw [this, List.flatten_append, List.flatten_cons]
  rintro b hb
  obtain ⟨y, hy, hyb⟩ := hb
  have hb : ∃ x ∈ p, opFoot g x b := ⟨y, hy, hyb⟩
  have hL : ∀ x ∈ (progs.take i).flatten, ∀ c, (∃ y ∈ p, opFoot g y c) → ¬ opWrites g x c := by
    rintro x hx c ⟨y, hy, hyc⟩ hxc
    obtain ⟨q, hq, hxq⟩ := List.mem_flatten.1 hx
    obtain ⟨j, hj, e⟩ := List.mem_iff_getElem.1 hq
    rw [List.getElem_take] at e
    rw [List.length_take] at hj
    exact hap j i q p (by omega) (by rw [List.getElem?_eq_getElem (by omega), e]) hp x hxq y hy c hxc hyc
  have hR : ∀ x ∈ (progs.drop (i + 1)).flatten, ¬ opWrites g x b := by
    rintro x hx hxc
    obtain ⟨q, hq, hxq⟩ := List.mem_flatten.1 hx
    obtain ⟨j, hj, e⟩ := List.mem_iff_getElem.1 hq
    rw [List.getElem_drop] at e
    rw [List.length_drop] at hj
    exact hap (i + 1 + j) i q p (by omega) (by rw [List.getElem?_eq_getElem (by omega), e]) hp x hxq y hy b hxc hyb
  have okAll : ∀ x ∈ progs.flatten, opOk g g.alloc.length x := by
    intro x hx
    obtain ⟨q, hq, hxq⟩ := List.mem_flatten.1 hx
    exact hok q hq x hxq
  have okL : ∀ x ∈ (progs.take i).flatten, opOk g g.alloc.length x := fun x hx => okAll x (hfl ▸ List.mem_append_left _ hx)
  have okP := hok p (List.mem_of_getElem? hp)
  have okR : ∀ x ∈ (progs.drop (i + 1)).flatten, opOk g g.alloc.length x :=
    fun x hx => okAll x (hfl ▸ List.mem_append_right _ (List.mem_append_right _ hx))
  have l1 := opsApply_length okL
  have hag : agreeOn (fun b => ∃ x ∈ p, opFoot g x b) (opsApply g g.alloc (progs.take i).flatten) g.alloc :=
    fun c hc => opsApply_other okL fun x hx => hL x hx c hc
  have h2 := (opsApply_agree (g := g) (p := p) l1 (fun x hx => by rw [l1]; exact okP x hx) (fun x hx b hb => ⟨x, hx, hb⟩) hag).1
  rw [hfl, opsApply_append, opsApply_append, opsApply_other _ hR]
  · exact h2 b hb
  · intro x hx
    rw [opsApply_length (fun y hy => by rw [l1]; exact okP y hy), l1]
    exact okR x hx

/-- When all is done the storage is that of the calls one after the other. -/
theorem inv_finished {g : Group} {progs : List (List CellOp)} (hok : ∀ p ∈ progs, ∀ x ∈ p, opOk g g.alloc.length x)
    (hap : footsApart g progs) {st : FillSt} {m : Bytes} (h : FillInv g progs st m) (hf : st.finished) :
    m = opsApply g g.alloc progs.flatten ∧ ∀ (i : Nat) (w : Filler) (p : List CellOp), st.fillers[i]? = some w → progs[i]? = some p → w.got = opsOut g g.alloc p := by
  have hend : ∀ w ∈ st.fillers, fillerEnd g m w = m ∧ fillerOut g m w = w.got := by
    intro w hw
    obtain ⟨h1, h2⟩ := hf w hw
    constructor
    · simp only [fillerEnd, h1, h2, pcFinish, opsApply]
    · simp only [fillerOut, h1, h2, pcFinish, pcOut, opsOut, List.append_nil]
  refine ⟨?_, fun i w p hw hp => ?_⟩
  · apply List.ext_getElem?
    intro b
    by_cases hb : ∃ p ∈ progs, ∃ x ∈ p, opWrites g x b
    · obtain ⟨p, hp, x, hx, hxb⟩ := hb
      obtain ⟨i, hi, e⟩ := List.mem_iff_getElem.1 hp
      have hp' : progs[i]? = some p := by rw [List.getElem?_eq_getElem hi, e]
      have hiw : i < st.fillers.length := h.count ▸ hi
      have hk := (h.each i _ p (List.getElem?_eq_getElem hiw) hp').2.1 b ⟨x, hx, writes_foot hxb⟩
      rw [(hend _ (List.getElem_mem hiw)).1] at hk
      rw [hk]
      exact (flatten_agree hok hap hp' b ⟨x, hx, writes_foot hxb⟩).symm
    · rw [h.rest b fun p hp x hx hxb => hb ⟨p, hp, x, hx, hxb⟩]
      refine (opsApply_other (fun x hx => ?_) fun x hx hxb => ?_).symm
      · obtain ⟨q, hq, hxq⟩ := List.mem_flatten.1 hx
        exact hok q hq x hxq
      · obtain ⟨q, hq, hxq⟩ := List.mem_flatten.1 hx
        exact hb ⟨q, hq, x, hxq, hxb⟩
  · have := (h.each i w p hw hp).2.2
    rw [(hend w (List.mem_of_getElem? hw)).2] at this
    exact this

/-! ## Cells and bytes -/

theorem inside_ok {g : Group} {rows : Nat} (hs : g.Sized rows) {x : CellOp} (hx : x.inside g rows) : opOk g g.alloc.length x := by
  have : ∀ col row, col < g.attrs.length → row < rows → g.offset col row + cellWidth g ≤ g.alloc.length := by
    intro col row hc hr
    cases hk : g.kind with
    | fixed size => simp only [cellWidth, hk]; exact Group.fixedOff_le hk hs hc hr
    | binary => simp only [cellWidth, hk]; exact Group.binOff_lt hk hs hc hr
  cases x with
  | set col row v => exact ⟨hx.2.2, this _ _ hx.1 hx.2.1⟩
  | get col row => exact this _ _ hx.1 hx.2
  | extend add => exact hx.elim

theorem inside_cell {g : Group} {rows : Nat} {x : CellOp} (hx : x.inside g rows) {c : Nat × Nat} (hc : x.cell = some c) :
    c.1 < g.attrs.length := by
  cases x with
  | set col row v => injection hc with hc; subst hc; exact hx.1
  | get col row => injection hc with hc; subst hc; exact hx.1
  | extend add => exact hx.elim

/-- Cells that are apart have no byte in common. -/
theorem foot_apart {g : Group} {a c : Nat × Nat} (ha : a.1 < g.attrs.length) (hc : c.1 < g.attrs.length) (h : cellsApart g.kind a c)
    {b : Nat} (h1 : footOf g a b) (h2 : footOf g c b) : False := by
  cases hk : g.kind with
  | fixed size =>
    simp only [footOf, cellWidth, hk, Group.offset, Group.rowSize] at h1 h2
    rw [fixedOff_eq] at h1 h2
    simp only [cellsApart, hk] at h
    apply h
    have key : a.2 * g.attrs.length + a.1 = c.2 * g.attrs.length + c.1 := by
      rcases Nat.lt_trichotomy (a.2 * g.attrs.length + a.1) (c.2 * g.attrs.length + c.1) with hlt | heq | hlt
      · have := block_bound (s := size) hlt; omega
      · exact heq
      · have := block_bound (s := size) hlt; omega
    obtain ⟨e1, e2⟩ := pair_eq_of_lin ha hc key
    exact Prod.ext e2 e1
  | binary =>
    simp only [footOf, cellWidth, hk, Group.offset] at h1 h2
    have hr : g.rowSize = (g.attrs.length + 7) / 8 := by simp only [Group.rowSize, hk]
    obtain ⟨e1, e2⟩ := pair_eq_of_lin (n := g.rowSize) (r := a.2) (c := a.1 / 8) (r' := c.2) (c' := c.1 / 8) (by omega) (by omega) (by omega)
    simp only [cellsApart, hk] at h
    omega

theorem work_foots {g : Group} {rows : Nat} {progs : List (List CellOp)} (hin : ∀ p ∈ progs, ∀ x ∈ p, x.inside g rows)
    (h : workApart g.kind progs) : footsApart g progs := by
  rintro i j p q hij hp hq x hx y hy b ⟨col, row, v, rfl, hb⟩ ⟨c, hc, hcb⟩
  exact foot_apart (inside_cell (hin p (List.mem_of_getElem? hp) _ hx) rfl) (inside_cell (hin q (List.mem_of_getElem? hq) _ hy) hc)
    (h i j p q hij hp hq _ hx y hy c hc) hb hcb

theorem owned_apart {size : Nat} {progs : List (List CellOp)} (h : cellsOwned progs) : workApart (.fixed size) progs := by
  intro i j p q hij hp hq x hx y hy
  cases x with
  | set col row v =>
    intro c hc
    rintro rfl
    exact h i j p q hij hp hq col row v hx y hy hc
  | get col row => trivial
  | extend add => trivial

/-! ## The calls one after the other -/

theorem set_apply {g : Group} {col row : Nat} {v : Bytes} (h : opOk g g.alloc.length (.set col row v)) :
    g.set col row v = .ok { g with alloc := opApply g g.alloc (.set col row v) } := by
  cases hk : g.kind with
  | fixed size =>
    simp only [opOk, hk, acceptable, cellWidth] at h
    simp only [Group.set, opApply, hk]
    rw [if_neg (by omega), if_neg (by omega), if_neg (by omega)]
  | binary =>
    simp only [opOk, hk, acceptable, cellWidth] at h
    obtain ⟨v0, vs, rfl⟩ := List.exists_cons_of_ne_nil h.1
    have hl : g.offset col row < g.alloc.length := h.2
    simp only [Group.set, opApply, hk, List.getElem?_eq_getElem hl, List.getD_eq_getElem?_getD, Option.getD_some, bitPut]
    by_cases hv : v0.toNat > 0
    · rw [if_pos hv, if_pos (by exact decide_eq_true hv)]
    · rw [if_neg hv, if_neg (by show ¬ decide (v0.toNat > 0) = true; rw [decide_eq_true_eq]; exact hv)]

theorem get_apply {g : Group} {col row : Nat} (h : opOk g g.alloc.length (.get col row)) :
    ∃ x, g.get col row = .ok x ∧ opOut g g.alloc (.get col row) = [x] := by
  cases hk : g.kind with
  | fixed size =>
    simp only [opOk, hk, cellWidth] at h
    refine ⟨(g.alloc.drop (g.offset col row)).take size, ?_, by simp only [opOut, hk]⟩
    simp only [Group.get, hk]
    rw [if_neg (by omega)]
  | binary =>
    simp only [opOk, hk, cellWidth] at h
    have hl : g.offset col row < g.alloc.length := h
    refine ⟨bitTest (g.alloc.getD (g.offset col row) 0#8) col, ?_, by simp only [opOut, hk]⟩
    simp only [Group.get, hk, List.getElem?_eq_getElem hl, List.getD_eq_getElem?_getD, Option.getD_some, bitTest]
    split <;> rfl

theorem inTurn_apply : ∀ (p : List CellOp) (g : Group), (∀ x ∈ p, opOk g g.alloc.length x) →
    inTurn g p = .ok ({ g with alloc := opsApply g g.alloc p }, opsOut g g.alloc p)
  | [], _, _ => rfl
  | x :: p, g, h => by
    have hx := h x List.mem_cons_self
    have hp : ∀ y ∈ p, opOk g g.alloc.length y := fun y hy => h y (List.mem_cons_of_mem _ hy)
    cases x with
    | set col row v =>
      rw [inTurn, set_apply hx, Res.bind_ok]
      have e := opApply_length hx
      have : ∀ (al : Bytes) (q : List CellOp) (m : Bytes), opsApply { g with alloc := al } m q = opsApply g m q ∧
          opsOut { g with alloc := al } m q = opsOut g m q := by
        intro al q
        induction q with
        | nil => intro m; exact ⟨rfl, rfl⟩
        | cons y q ih =>
          intro m
          have hy : opApply { g with alloc := al } m y = opApply g m y := by cases y <;> rfl
          have hy' : opOut { g with alloc := al } m y = opOut g m y := by cases y <;> rfl
          exact ⟨by rw [opsApply, opsApply, hy]; exact (ih _).1, by rw [opsOut, opsOut, hy, hy', (ih _).2]⟩
      rw [inTurn_apply p { g with alloc := opApply g g.alloc (.set col row v) } ?_]
      · rw [(this _ p _).1, (this _ p _).2]
        rfl
      · intro y hy
        have := hp y hy
        show opOk _ (opApply g g.alloc (.set col row v)).length y
        rw [e]
        cases y <;> exact this
    | get col row =>
      obtain ⟨y, e1, e2⟩ := get_apply hx
      rw [inTurn, e1, Res.bind_ok, inTurn_apply p g hp, Res.map_ok, opsApply, opsOut, e2]
      rfl
    | extend add => exact hx.elim

/-- Calls one after the other leave in a cell the last value it was set to. -/
theorem inTurn_last : ∀ (p : List CellOp) {g g' : Group} {rows : Nat} {outs : List Bytes}, g.Sized rows → (∀ x ∈ p, x.inside g rows) →
    inTurn g p = .ok (g', outs) → ∀ col row, col < g.attrs.length → row < rows →
    g'.get col row = match lastSet (col, row) p with
      | some v => .ok (cellValue g.kind (some v))
      | none => g.get col row
  | [], g, g', rows, outs, hs, hin, h, col, row, hc, hr => by
    have h := Res.ok.inj h
    have e : g = g' := congrArg Prod.fst h
    subst e
    rfl
  | .set c r v :: p, g, g', rows, outs, hs, hin, h, col, row, hc, hr => by
    have hx := hin _ List.mem_cons_self
    obtain ⟨g1, e, hk, ha, hs1, hget, hoth⟩ := Group.set_spec hs hx.1 hx.2.1 hx.2.2
    rw [inTurn, e, Res.bind_ok] at h
    have ih := inTurn_last p hs1 (fun y hy => by
      have := hin y (List.mem_cons_of_mem _ hy)
      cases y <;> simpa only [CellOp.inside, hk, ha] using this) h col row (by rw [ha]; exact hc) hr
    rw [ih, hk]
    simp only [lastSet]
    cases lastSet (col, row) p with
    | some w => rfl
    | none =>
      by_cases he : (c, r) = (col, row)
      · rw [if_pos he]
        injection he with h1 h2
        subst h1 h2
        exact hget
      · rw [if_neg he]
        exact hoth col row hc hr fun h => he h.symm
  | .get c r :: p, g, g', rows, outs, hs, hin, h, col, row, hc, hr => by
    rw [inTurn] at h
    obtain ⟨x, _, h⟩ := Res.bind_eq_ok.1 h
    obtain ⟨y, hy, h⟩ := Res.map_eq_ok.1 h
    have e : y.1 = g' := congrArg Prod.fst h
    exact inTurn_last p (outs := y.2) hs (fun z hz => hin z (List.mem_cons_of_mem _ hz)) (by rw [hy, ← e]) col row hc hr
  | .extend n :: p, g, g', rows, outs, hs, hin, h, col, row, hc, hr => (hin _ List.mem_cons_self).elim

/-! ## Every goroutine comes to an end -/

/-- How many steps a call takes at most. -/
def opSteps (g : Group) (_ : CellOp) : Nat := cellWidth g + 2

/-- How many steps a goroutine still makes. -/
def pcSteps : CellPc → Nat
  | .idle => 0
  | .copy _ _ rest => rest.length + 1
  | .load _ _ _ _ => 2
  | .store _ _ _ => 1
  | .view _ _ n _ => n + 1
  | .test _ _ _ => 1
  | .swap _ => 1

def fillerSteps (g : Group) (w : Filler) : Nat := w.todo.length * (cellWidth g + 2) + pcSteps w.pc

theorem fillerStep_steps {g : Group} {m m' : FillMem} {w w' : Filler} (h : fillerStep g m w = some (m', w')) :
    fillerSteps g w' ≤ fillerSteps g w - 1 := by
  obtain ⟨todo, pc, got⟩ := w
  cases pc with
  | idle =>
    cases todo with
    | nil => injection h with h; injection h with _ h; subst h; simp [fillerSteps, pcSteps]
    | cons x rest =>
      cases x with
      | set col row v =>
        cases hk : g.kind with
        | fixed size =>
          simp only [fillerStep, hk] at h
          split at h
          · injection h with h; injection h with _ h; subst h
            simp only [fillerSteps, pcSteps, cellWidth, hk, List.length_cons, Nat.add_mul]; omega
          · cases h
        | binary =>
          simp only [fillerStep, hk] at h
          cases v with
          | nil => cases h
          | cons v0 vs =>
            simp only at h
            split at h
            · injection h with h; injection h with _ h; subst h
              simp only [fillerSteps, pcSteps, cellWidth, hk, List.length_cons, Nat.add_mul]; omega
            · cases h
      | get col row =>
        cases hk : g.kind with
        | fixed size =>
          simp only [fillerStep, hk] at h
          split at h
          · injection h with h; injection h with _ h; subst h
            simp only [fillerSteps, pcSteps, cellWidth, hk, List.length_cons, Nat.add_mul]; omega
          · cases h
        | binary =>
          simp only [fillerStep, hk] at h
          split at h
          · injection h with h; injection h with _ h; subst h
            simp only [fillerSteps, pcSteps, cellWidth, hk, List.length_cons, Nat.add_mul]; omega
          · cases h
      | extend add =>
        injection h with h; injection h with _ h; subst h
        simp only [fillerSteps, pcSteps, List.length_cons, Nat.add_mul]; omega
  | copy a off rest =>
    cases rest with
    | nil => injection h with h; injection h with _ h; subst h; simp only [fillerSteps, pcSteps, List.length_nil]; omega
    | cons b rest => injection h with h; injection h with _ h; subst h; simp only [fillerSteps, pcSteps, List.length_cons]; omega
  | load a off col on => injection h with h; injection h with _ h; subst h; simp only [fillerSteps, pcSteps]; omega
  | store a off b => injection h with h; injection h with _ h; subst h; simp only [fillerSteps, pcSteps]; omega
  | view a off n gt =>
    cases n with
    | zero => injection h with h; injection h with _ h; subst h; simp only [fillerSteps, pcSteps]; omega
    | succ n => injection h with h; injection h with _ h; subst h; simp only [fillerSteps, pcSteps]; omega
  | test a off col => injection h with h; injection h with _ h; subst h; simp only [fillerSteps, pcSteps]; omega
  | swap new => injection h with h; injection h with _ h; subst h; simp only [fillerSteps, pcSteps]; omega

theorem runs_steps {g : Group} : ∀ (sched : List Nat) {st st' : FillSt}, st.runs g sched = some st' →
    st'.fillers.length = st.fillers.length ∧ ∀ (i : Nat) (w w' : Filler), st.fillers[i]? = some w → st'.fillers[i]? = some w' →
      fillerSteps g w' ≤ fillerSteps g w - sched.count i
  | [], st, st', h => by
    injection h with h
    subst h
    refine ⟨rfl, fun i w w' h1 h2 => ?_⟩
    rw [h1] at h2
    injection h2 with h2
    subst h2
    simp
  | k :: sched, st, st', h => by
    rw [FillSt.runs] at h
    cases hw : st.fillers[k]? with
    | none =>
      simp only [FillSt.step, hw] at h
      obtain ⟨h1, h2⟩ := runs_steps sched h
      refine ⟨h1, fun i w w' h3 h4 => ?_⟩
      have := h2 i w w' h3 h4
      have hne : k ≠ i := by rintro rfl; rw [hw] at h3; cases h3
      rw [List.count_cons_of_ne hne]
      exact this
    | some u =>
      simp only [FillSt.step, hw] at h
      cases hs : fillerStep g st.mem u with
      | none => rw [hs] at h; cases h
      | some r =>
        obtain ⟨m1, u1⟩ := r
        rw [hs] at h
        obtain ⟨h1, h2⟩ := runs_steps sched h
        simp only [List.length_set] at h1
        refine ⟨h1, fun i w w' h3 h4 => ?_⟩
        by_cases hki : k = i
        · subst hki
          rw [hw] at h3
          injection h3 with h3
          subst h3
          have hk : k < st.fillers.length := (List.getElem?_eq_some_iff.1 hw).1
          have := h2 k u1 w' (List.getElem?_set_self hk) h4
          have := fillerStep_steps hs
          rw [List.count_cons_self]
          omega
        · have := h2 i w w' (by simp only [List.getElem?_set_ne hki]; exact h3) h4
          rw [List.count_cons_of_ne hki]
          exact this

theorem steps_zero {g : Group} {w : Filler} (h : fillerSteps g w = 0) : w.todo = [] ∧ w.pc = .idle := by
  obtain ⟨todo, pc, got⟩ := w
  simp only [fillerSteps] at h
  have h1 : todo.length * (cellWidth g + 2) = 0 := by omega
  have h2 : pcSteps pc = 0 := by omega
  refine ⟨?_, ?_⟩
  · rcases Nat.mul_eq_zero.1 h1 with h | h
    · exact List.length_eq_zero_iff.1 h
    · omega
  · cases pc <;> simp only [pcSteps] at h2 <;> first | rfl | omega

end Golearn
