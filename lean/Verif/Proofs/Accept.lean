import Verif.Proofs.History

namespace Golearn

theorem addAttribute_fixed {pg : Nat} {d : Dense} (hf : d.fixed = true) (a : Attr) :
    d.addAttribute pg a = Res.panic := by
  simp [Dense.addAttribute, hf]

theorem addAttribute_total {pg rows : Nat} {W : Nat → Nat → Option Bytes} {st : St}
    (I : Inv rows W st) (hf : st.d.fixed = false) (a : Attr) :
    ∃ p, st.d.addAttribute pg a = Res.ok p := by
  unfold Dense.addAttribute
  rw [if_neg (by simp [hf])]
  obtain ⟨c1, c2, c3, c4, _⟩ := chooseGroup_frame pg st.d a
  generalize st.d.chooseGroup pg a = cg at c1 c2 c3 c4 ⊢
  obtain ⟨d1, ag, isBin⟩ := cg
  simp only at c1 c2 c3 c4 ⊢
  have r0 : rows = 0 := I.unfixed hf
  subst r0
  have I1 : Inv 0 W ⟨d1, st.handles⟩ := Inv.congr (d := st.d) I c1 c2 c3 c4
  cases hag : GoMap.get? d1.agMap ag with
  | some id =>
    simp only [Res.bind_ok, hag]
    obtain ⟨g, hg⟩ := I1.agmap _ _ hag
    exact ⟨_, pushAttr_ok hg⟩
  | none =>
    have hd1 : ∃ d2, d1.createGroup ag (if isBin then 0 else 8) = Res.ok d2 := by
      unfold Dense.createGroup
      rw [if_neg (by simp [c3, hf])]
      exact ⟨_, rfl⟩
    obtain ⟨d2, hd2⟩ := hd1
    have hid : GoMap.get? d2.agMap ag = some d1.ags.length := by
      rw [(createGroup_ok hd2).2.2.2.2.2.1, GoMap.get?_set, if_pos rfl]
    obtain ⟨g, hg⟩ := (I1.create hd2).agmap _ _ hid
    simp only [hd2, Res.bind_ok, hid]
    exact ⟨_, pushAttr_ok hg⟩

theorem set_total {rows row h : Nat} {W : Nat → Nat → Option Bytes} {st : St} {s : Spec}
    {v : Bytes} {k : GKind} (I : Inv rows W st) (hs : st.handles[h]? = some s)
    (hk : kindOf st.d s = some k) (hr : row < rows) (hv : acceptable k v) :
    ∃ d', st.d.set s row v = Res.ok d' := by
  obtain ⟨id, g, h1, h2, h3⟩ := I.valid _ _ hs
  have hc : s.position < g.attrs.length := (List.getElem?_eq_some_iff.1 h3).1
  have : g.kind = k := by simpa [kindOf, h1, h2] using hk
  subst this
  obtain ⟨g', hg', _⟩ := Group.set_spec (I.sized _ _ h2) hc hr hv
  exact ⟨{ st.d with ags := st.d.ags.set id g' }, by simp [Dense.set, h1, h2, hg']⟩

theorem run_prefix {pg : Nat} {ops ops' : List Op} {st' : St}
    (h : run pg (ops ++ ops') = Res.ok st') : ∃ st, run pg ops = Res.ok st := by
  induction ops' using List.reverseRecOn generalizing st' with
  | nil => rw [List.append_nil] at h; exact ⟨_, h⟩
  | append_singleton xs x ih =>
    rw [← List.append_assoc, run_snoc, Res.bind_eq_ok] at h
    obtain ⟨s1, h1, _⟩ := h
    exact ih h1

theorem step_handles {pg : Nat} {st st' : St} {op : Op} (h : step pg st op = Res.ok st') :
    st.handles <+: st'.handles := by
  have same : ∀ {r : Res Dense}, absorb st (r.map fun d => ⟨d, st.handles⟩) = Res.ok st' →
      st.handles <+: st'.handles := by
    intro r hr
    rcases absorb_ok hr with e | e
    · rw [e]; exact List.prefix_refl _
    · rw [Res.map_eq_ok] at e
      obtain ⟨d, _, e2⟩ := e
      rw [← e2]; exact List.prefix_refl _
  cases op with
  | create _ _ => exact same h
  | addClass _ => exact same h
  | removeClass _ => exact same h
  | add a =>
    simp only [step, Res.map_eq_ok] at h
    obtain ⟨p, _, e⟩ := h
    rw [← e]; exact List.prefix_append _ _
  | addTo a ag =>
    simp only [step] at h
    rcases absorb_ok h with e | e
    · rw [e]; exact List.prefix_refl _
    · rw [Res.map_eq_ok] at e
      obtain ⟨p, _, e2⟩ := e
      rw [← e2]; exact List.prefix_append _ _
  | extend n =>
    simp only [step, Res.ok.injEq] at h
    rw [← h]; exact List.prefix_refl _
  | set k r v =>
    simp only [step] at h
    split at h
    · cases h
    · rw [Res.map_eq_ok] at h
      obtain ⟨d, _, e2⟩ := h
      rw [← e2]; exact List.prefix_refl _

theorem run_handles {pg : Nat} {ops ops' : List Op} {st st' : St}
    (h : run pg ops = Res.ok st) (h' : run pg (ops ++ ops') = Res.ok st') :
    st.handles <+: st'.handles := by
  induction ops' using List.reverseRecOn generalizing st' with
  | nil =>
    rw [List.append_nil, h] at h'
    simp only [Res.ok.injEq] at h'
    subst h'; exact List.prefix_refl _
  | append_singleton xs x ih =>
    rw [← List.append_assoc, run_snoc, Res.bind_eq_ok] at h'
    obtain ⟨s1, h1, h2⟩ := h'
    exact (ih h1).trans (step_handles h2)

end Golearn
