import Verif.Decks.HvNpn

/-!
# The bases and collectors of the bipolar transistors of sky130A

The script selects the emitters of a model by their size or by poly, and then the bases and collectors by their bounding boxes
(pdk/sky130A/libs.tech/kpex/sky130.lvs 1099–1132). Bases and collectors are given with their bounding boxes; where the boxes of different
transistors have no common point, this is exact.
-/

namespace Verif.Decks.HvNpn

/-- `interacting` of boxes: they have a common point. -/
def Part.touches (p q : Part) : Bool :=
  decide (p.box.x0 ≤ q.box.x1) && decide (q.box.x0 ≤ p.box.x1) && decide (p.box.y0 ≤ q.box.y1) && decide (q.box.y0 ≤ p.box.y1)

/-- `x.interacting(x.extents.interacting(e))`; sky130.lvs 1100, 1101, 1105, 1106, 1110, 1111, 1126, 1127, 1131 and 1132. The transistor pnpMPA
of sg13g2 has the same selection; rule_decks/bjt_derivations.lvs 124–125. -/
def nodes (parts es : List Part) : List Part :=
  parts.filter fun p => (parts.filter fun q => es.any q.touches).any p.touches

/-! ### Specification -/

/-- `f` gives a part of each transistor that encloses its emitter: its base or its collector. -/
def Encloses (f : Npn → Part) (t : Npn) : Prop := Within (f t).box t.c.box ∧ Within t.e.box (f t).box

/-! ### Proofs -/

theorem touches_within {p q : Part} (h : Within q.box p.box) : p.touches q = true := by
  simp only [Within] at h
  simp only [Part.touches, Bool.and_eq_true, decide_eq_true_eq]
  omega

theorem touches_clear {p q : Part} {r s : Rectangle} (hp : Within p.box r) (hq : Within q.box s) (h : Clear r s) :
    p.touches q = false := by
  simp only [Within] at hp hq
  simp only [Clear] at h
  rw [← Bool.not_eq_true]
  simp only [Part.touches, Bool.and_eq_true, decide_eq_true_eq]
  omega

theorem within_self {p q : Rectangle} (h : Within p q) : Within p p := by
  simp only [Within] at *
  omega

theorem clear_symm {p q : Rectangle} (h : Clear p q) : Clear q p := by
  simp only [Clear] at *
  omega

theorem clear_of_ne : ∀ {ts : List Npn}, ts.Pairwise (fun s t => Clear s.c.box t.c.box) → ∀ {s t : Npn}, s ∈ ts → t ∈ ts → s ≠ t →
    Clear s.c.box t.c.box
  | [], _, _, _, hs, _, _ => by cases hs
  | _ :: _, ha, _, _, hs, ht, hne => by
    rw [List.pairwise_cons] at ha
    rcases List.mem_cons.1 hs with rfl | hs' <;> rcases List.mem_cons.1 ht with rfl | ht'
    · exact absurd rfl hne
    · exact ha.1 _ ht'
    · exact clear_symm (ha.1 _ hs')
    · exact clear_of_ne ha.2 hs' ht' hne

/-- Of transistors that are apart from each other, two parts touch only if they are of the same transistor. -/
theorem same_of_touches {ts : List Npn} (ha : ts.Pairwise fun s t => Clear s.c.box t.c.box) {f g : Npn → Part}
    (hf : ∀ t ∈ ts, Within (f t).box t.c.box) (hg : ∀ t ∈ ts, Within (g t).box t.c.box) {s t : Npn} (hs : s ∈ ts) (ht : t ∈ ts)
    (h : (f s).touches (g t) = true) : s = t := by
  by_contra hne
  have hc := clear_of_ne ha hs ht hne
  rw [touches_clear (hf s hs) (hg t ht) hc] at h
  cases h

/-- **C150, partial.** The bases and collectors that the script takes for a model are exactly those of the transistors whose emitters have
the model, whatever other transistors there are. Missing: transistors whose collectors touch or are shared. -/
theorem nodes_own_partial {ts : List Npn} {f : Npn → Part} (sel : Npn → Bool) (hf : ∀ t ∈ ts, Encloses f t)
    (ha : ts.Pairwise fun s t => Clear s.c.box t.c.box) :
    nodes (ts.map f) ((ts.filter sel).map (·.e)) = (ts.filter sel).map f := by
  have hfc : ∀ t ∈ ts, Within (f t).box t.c.box := fun t h => (hf t h).1
  have hec : ∀ t ∈ ts, Within t.e.box t.c.box := fun t h => within_trans (hf t h).2 (hf t h).1
  rw [nodes, List.filter_map]
  congr 1
  refine List.filter_congr fun t ht => ?_
  rw [Bool.eq_iff_iff]
  simp only [Function.comp, List.any_eq_true, List.mem_filter, List.mem_map]
  constructor
  · rintro ⟨q, ⟨⟨s, hs, rfl⟩, e, ⟨u, ⟨hu, hsel⟩, rfl⟩, h1⟩, h2⟩
    have h3 := same_of_touches ha hfc hfc ht hs h2
    have h4 := same_of_touches ha hfc hec hs hu h1
    rw [h3, h4]
    exact hsel
  · intro hsel
    exact ⟨f t, ⟨⟨t, ht, rfl⟩, t.e, ⟨t, ⟨ht, hsel⟩, rfl⟩, touches_within (hf t ht).2⟩, touches_within (within_self (hfc t ht))⟩

/-- **C149, C150, partial.** The devices of 11 V of a chip: the transistors whose emitters are of that kind, each once, whatever others
there are. -/
theorem hv_npn_chip_partial {ts : List Npn} (hv : Npn → Bool) (hn : ∀ t ∈ ts, t.Nested)
    (ha : ts.Pairwise fun s t => Clear s.c.box t.c.box) :
    devices (nodes (ts.map (·.c)) ((ts.filter hv).map (·.e))) (nodes (ts.map (·.b)) ((ts.filter hv).map (·.e)))
      ((ts.filter hv).map (·.e)) = (ts.filter hv).map fun t => (t.c.net, t.b.net, t.e.net) := by
  rw [nodes_own_partial hv (fun t h => ⟨(hn t h).1, within_trans (hn t h).2.2 (hn t h).2.1⟩) ha,
    nodes_own_partial hv (fun t h => ⟨(hn t h).2.1, (hn t h).2.2⟩) ha]
  exact hv_npn_exact_partial (fun t h => hn t (List.mem_filter.1 h).1) (ha.filter hv)

/-- Violation: a collector whose bounding box touches that of a selected one is selected too, although its transistor is of another
model. -/
theorem neighbour_selected {s t : Npn} (hs : s.Nested) (h : t.c.touches s.c = true) : t.c ∈ nodes [s.c, t.c] [s.e] := by
  rw [nodes, List.mem_filter, List.any_eq_true]
  refine ⟨by simp, s.c, ?_, h⟩
  rw [List.mem_filter]
  refine ⟨.head _, ?_⟩
  rw [List.any_eq_true]
  exact ⟨s.e, .head _, touches_within (within_trans hs.2.2 hs.2.1)⟩

/-- Three transistors, of which the first and the last are of 11 V; and a collector that touches the one of another transistor. -/
theorem nodes_ex :
    let s : Npn := ⟨⟨⟨0, 0, 100, 100⟩, 1⟩, ⟨⟨20, 20, 80, 80⟩, 2⟩, ⟨⟨40, 40, 60, 60⟩, 3⟩⟩
    let t : Npn := ⟨⟨⟨110, 0, 210, 100⟩, 4⟩, ⟨⟨130, 20, 190, 80⟩, 5⟩, ⟨⟨150, 40, 170, 60⟩, 6⟩⟩
    let u : Npn := ⟨⟨⟨220, 0, 320, 100⟩, 7⟩, ⟨⟨240, 20, 300, 80⟩, 8⟩, ⟨⟨260, 40, 280, 60⟩, 9⟩⟩
    (∀ x ∈ [s, t, u], x.Nested) ∧ [s, t, u].Pairwise (fun s t => Clear s.c.box t.c.box) ∧
      (nodes [s.b, t.b, u.b] [s.e, u.e]).map (·.net) = [2, 8] ∧
      devices (nodes [s.c, t.c, u.c] [s.e, u.e]) (nodes [s.b, t.b, u.b] [s.e, u.e]) [s.e, u.e] = [(1, 2, 3), (7, 8, 9)] ∧
      (nodes [s.c, ⟨⟨100, 0, 200, 100⟩, 4⟩] [s.e]).map (·.net) = [1, 4] := by
  refine ⟨by simp [Npn.Nested, Within], by simp [Clear], by decide, by decide, by decide⟩

end Verif.Decks.HvNpn
