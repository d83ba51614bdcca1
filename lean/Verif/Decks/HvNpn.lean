import Verif.Decks.Measure

/-!
# The bipolar transistors of 11 V of sky130A

The extractor `FixBJT4Transistor` (pdk/sky130A/libs.tech/kpex/sky130.lvs 345–405) as it is called in lines 2029–2030. Collectors, bases and
emitters are given with their bounding boxes. The bounding boxes of the collectors, which are the seeds of the devices, have no common
point, so that KLayout does not merge them. Left out: the selection of the shapes (lines 1094–1111) and the terminal of the substrate, which is a shape
of the layer `sub` at the emitter.
-/

namespace Verif.Decks.HvNpn

/-- A collector, base or emitter: its bounding box and its net. -/
structure Part where
  box : Rectangle
  net : Nat

/-- `t & c` is not empty: the boxes have a common area. -/
def Part.over (c p : Part) : Bool :=
  decide (c.box.x0 < p.box.x1) && decide (p.box.x0 < c.box.x1) && decide (c.box.y0 < p.box.y1) && decide (p.box.y0 < c.box.y1)

/-- The nets of collector, base and emitter of the devices; sky130.lvs 386–403. -/
def devices (cs bs es : List Part) : List (Nat × Nat × Nat) :=
  cs.flatMap fun c => (cs.filter c.over).flatMap fun cc => (bs.filter c.over).flatMap fun b => (es.filter c.over).map fun e =>
    (cc.net, b.net, e.net)

/-! ### Specification -/

/-- A transistor as it is drawn. -/
structure Npn where
  c : Part
  b : Part
  e : Part

/-- `p` lies in `q`, and is not empty. -/
def Within (p q : Rectangle) : Prop := q.x0 ≤ p.x0 ∧ p.x0 < p.x1 ∧ p.x1 ≤ q.x1 ∧ q.y0 ≤ p.y0 ∧ p.y0 < p.y1 ∧ p.y1 ≤ q.y1

/-- The emitter lies in the base, and the base in the collector. -/
def Npn.Nested (t : Npn) : Prop := Within t.c.box t.c.box ∧ Within t.b.box t.c.box ∧ Within t.e.box t.b.box

/-- The rectangles have no common area. -/
def Apart (p q : Rectangle) : Prop := p.x1 ≤ q.x0 ∨ q.x1 ≤ p.x0 ∨ p.y1 ≤ q.y0 ∨ q.y1 ≤ p.y0

/-- The rectangles have no common point. -/
def Clear (p q : Rectangle) : Prop := p.x1 < q.x0 ∨ q.x1 < p.x0 ∨ p.y1 < q.y0 ∨ q.y1 < p.y0

/-! ### Proofs -/

theorem apart_of_clear {p q : Rectangle} (h : Clear p q) : Apart p q := by
  simp only [Clear] at h
  simp only [Apart]
  omega

theorem over_within {c p : Part} (hc : Within p.box c.box) : c.over p = true := by
  simp only [Within] at hc
  simp only [Part.over, Bool.and_eq_true, decide_eq_true_eq]
  omega

theorem over_apart {c d p : Part} (h : Apart c.box d.box) (hp : Within p.box d.box) : c.over p = false := by
  simp only [Within] at hp
  simp only [Apart] at h
  rw [← Bool.not_eq_true]
  simp only [Part.over, Bool.and_eq_true, decide_eq_true_eq]
  omega

theorem apart_symm {p q : Rectangle} (h : Apart p q) : Apart q p := by
  simp only [Apart] at *
  omega

theorem within_trans {p q r : Rectangle} (h : Within p q) (h' : Within q r) : Within p r := by
  simp only [Within] at *
  omega

theorem filter_apart {c : Part} {f : Npn → Part} {ts : List Npn} (h : ∀ t ∈ ts, Apart c.box t.c.box)
    (hf : ∀ t ∈ ts, Within (f t).box t.c.box) : (ts.map f).filter c.over = [] := by
  rw [List.filter_eq_nil_iff]
  intro p hp
  obtain ⟨t, ht, rfl⟩ := List.mem_map.1 hp
  rw [over_apart (h t ht) (hf t ht)]
  decide

theorem filter_own {l r : List Npn} {t : Npn} {f : Npn → Part} (hl : ∀ s ∈ l, Apart t.c.box s.c.box)
    (hr : ∀ s ∈ r, Apart t.c.box s.c.box) (hf : ∀ s ∈ l ++ t :: r, Within (f s).box s.c.box) :
    ((l ++ t :: r).map f).filter t.c.over = [f t] := by
  rw [List.map_append, List.map_cons, List.filter_append, List.filter_cons,
    filter_apart hl fun s hs => hf s (List.mem_append_left _ hs),
    filter_apart hr fun s hs => hf s (List.mem_append_right _ (.tail _ hs)),
    over_within (hf t (List.mem_append_right _ (.head _)))]
  rfl

theorem flatMap_single {α β : Type} {l : List α} {f : α → List β} {g : α → β} (h : ∀ x ∈ l, f x = [g x]) : l.flatMap f = l.map g := by
  induction l with
  | nil => rfl
  | cons x l ih =>
    rw [List.flatMap_cons, h x (.head _), ih fun y hy => h y (.tail _ hy)]
    rfl

/-- **C149, partial.** Transistors with a collector of their own each are extracted exactly: one device for each of them, between its
collector, base and emitter, whatever the others are. Missing: transistors with a common collector, for which it is false
(`hv_npn_shared`). -/
theorem hv_npn_exact_partial {ts : List Npn} (hn : ∀ t ∈ ts, t.Nested) (hclear : ts.Pairwise fun s t => Clear s.c.box t.c.box) :
    devices (ts.map (·.c)) (ts.map (·.b)) (ts.map (·.e)) = ts.map fun t => (t.c.net, t.b.net, t.e.net) := by
  have ha : ts.Pairwise fun s t => Apart s.c.box t.c.box := hclear.imp apart_of_clear
  rw [devices, List.flatMap_map]
  refine flatMap_single fun t ht => ?_
  obtain ⟨l, r, rfl⟩ := List.append_of_mem ht
  rw [List.pairwise_append, List.pairwise_cons] at ha
  have hl : ∀ s ∈ l, Apart t.c.box s.c.box := fun s hs => apart_symm (ha.2.2 s hs t (.head _))
  have hr : ∀ s ∈ r, Apart t.c.box s.c.box := ha.2.1.1
  rw [filter_own hl hr fun s hs => (hn s hs).1, filter_own hl hr fun s hs => (hn s hs).2.1,
    filter_own hl hr fun s hs => within_trans (hn s hs).2.2 (hn s hs).2.1]
  rfl

theorem devices_one {c : Part} {bs es : List Part} (hc : Within c.box c.box) (hb : ∀ b ∈ bs, Within b.box c.box)
    (he : ∀ e ∈ es, Within e.box c.box) :
    devices [c] bs es = bs.flatMap fun b => es.map fun e => (c.net, b.net, e.net) := by
  have h1 : bs.filter c.over = bs := List.filter_eq_self.2 fun b h => over_within (hb b h)
  have h2 : es.filter c.over = es := List.filter_eq_self.2 fun e h => over_within (he e h)
  simp [devices, h1, h2, over_within hc]

/-- C149: a base that is outside of the collector or only touches it gives no device. -/
theorem hv_npn_outside {c b : Part} {es : List Part} (hb : Within b.box b.box) (h : Apart c.box b.box) : devices [c] [b] es = [] := by
  simp [devices, over_apart h hb]

/-- C149: several emitters in one base are one device each. -/
theorem hv_npn_emitters {c b : Part} {es : List Part} (hc : Within c.box c.box) (hb : Within b.box c.box)
    (he : ∀ e ∈ es, Within e.box b.box) : devices [c] [b] es = es.map fun e => (c.net, b.net, e.net) := by
  rw [devices_one hc (by simpa using hb) fun e h => within_trans (he e h) hb]
  simp

/-- Violation: of transistors with a common collector, each base is combined with each emitter. There are as many devices as the square of
the number of transistors. -/
theorem hv_npn_shared {c : Part} {ts : List Npn} (hc : Within c.box c.box)
    (ht : ∀ t ∈ ts, Within t.b.box c.box ∧ Within t.e.box t.b.box) :
    (devices [c] (ts.map (·.b)) (ts.map (·.e))).length = ts.length * ts.length ∧
      ∀ s ∈ ts, ∀ t ∈ ts, (c.net, s.b.net, t.e.net) ∈ devices [c] (ts.map (·.b)) (ts.map (·.e)) := by
  rw [devices_one hc]
  · constructor
    · rw [List.length_flatMap, List.map_map, List.map_congr_left (g := fun _ => ts.length) fun t _ => by simp]
      simp
    · intro s hs t ht'
      rw [List.mem_flatMap]
      exact ⟨s.b, List.mem_map_of_mem hs, by
        rw [List.mem_map]
        exact ⟨t.e, List.mem_map_of_mem ht', rfl⟩⟩
  · intro b hb
    obtain ⟨t, h, rfl⟩ := List.mem_map.1 hb
    exact (ht t h).1
  · intro e he
    obtain ⟨t, h, rfl⟩ := List.mem_map.1 he
    exact within_trans (ht t h).2 (ht t h).1

/-- Two transistors side by side, and two in one collector. -/
theorem hv_npn_ex :
    let s : Npn := ⟨⟨⟨0, 0, 100, 100⟩, 1⟩, ⟨⟨20, 20, 80, 80⟩, 2⟩, ⟨⟨40, 40, 60, 60⟩, 3⟩⟩
    let t : Npn := ⟨⟨⟨110, 0, 200, 100⟩, 4⟩, ⟨⟨120, 20, 180, 80⟩, 5⟩, ⟨⟨140, 40, 160, 60⟩, 6⟩⟩
    s.Nested ∧ t.Nested ∧ [s, t].Pairwise (fun s t => Clear s.c.box t.c.box) ∧
      devices [s.c, t.c] [s.b, t.b] [s.e, t.e] = [(1, 2, 3), (4, 5, 6)] ∧
      devices [⟨⟨0, 0, 200, 100⟩, 1⟩] [s.b, t.b] [s.e, t.e] = [(1, 2, 3), (1, 2, 6), (1, 5, 3), (1, 5, 6)] := by
  refine ⟨by simp [Npn.Nested, Within], by simp [Npn.Nested, Within], by simp [Clear], by decide, by decide⟩

end Verif.Decks.HvNpn
