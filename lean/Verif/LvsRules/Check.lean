import Verif.LvsRules.Model

/-!
# A checker for layers at one place

`proves` and `refutes` decide, soundly but not completely, whether a derived layer has a shape at a place where others have
one or have none.
-/

namespace Verif.LvsRules

/-- Layers that have a shape at a place (`true`) or have none (`false`). -/
abbrev Facts := List (Bool × Expr)

/-- The facts hold at the place. -/
def Facts.At (F : Facts) (L : Layout) (c : Cell) : Prop := ∀ f ∈ F, if f.1 then holds L f.2 c else ¬ holds L f.2 c

/-- What follows from a layer having no shape at a place. -/
def absent : Expr → Facts
  | .or a b => absent a ++ absent b
  | e => [(false, e)]

/-- What follows from a layer having a shape at a place. -/
def present : Expr → Facts
  | .and a b => present a ++ present b
  | .diff a b => present a ++ absent b
  | .some n a => (true, .some n a) :: present a
  | e => [(true, e)]

theorem Facts.At.append {F G : Facts} {L : Layout} {c : Cell} (hF : F.At L c) (hG : G.At L c) : (F ++ G : Facts).At L c :=
  fun f hf => (List.mem_append.1 hf).elim (hF f) (hG f)

theorem absent_sound {L : Layout} {c : Cell} : ∀ (e : Expr), ¬ holds L e c → (absent e).At L c
  | .or a b, h => (absent_sound a fun h' => h (.inl h')).append (absent_sound b fun h' => h (.inr h'))
  | .drawn _ _, h | .text _ _, h | .other _, h | .and _ _, h | .diff _ _, h | .some _ _, h | .made _ _, h => by
    intro f hf
    obtain rfl := List.mem_singleton.1 hf
    exact h

theorem present_sound {L : Layout} {c : Cell} : ∀ (e : Expr), holds L e c → (present e).At L c
  | .and a b, h => (present_sound a h.1).append (present_sound b h.2)
  | .diff a b, h => (present_sound a h.1).append (absent_sound b h.2)
  | .some n a, h => by
    intro f hf
    rcases List.mem_cons.1 hf with rfl | hf
    · exact h
    · exact present_sound a h.1 f hf
  | .drawn _ _, h | .text _ _, h | .other _, h | .or _ _, h | .made _ _, h => by
    intro f hf
    obtain rfl := List.mem_singleton.1 hf
    exact h

mutual
/-- The facts imply that the layer has a shape at the place. -/
def proves (F : Facts) : Expr → Bool
  | .and a b => proves F a && proves F b
  | .or a b => F.contains (true, .or a b) || proves F a || proves F b
  | .diff a b => proves F a && refutes F b
  | e => F.contains (true, e)
/-- The facts imply that the layer has no shape at the place. -/
def refutes (F : Facts) : Expr → Bool
  | .and a b => F.contains (false, .and a b) || refutes F a || refutes F b
  | .or a b => F.contains (false, .or a b) || (refutes F a && refutes F b)
  | .diff a b => F.contains (false, .diff a b) || refutes F a || proves F b
  | .some n a => F.contains (false, .some n a) || refutes F a
  | e => F.contains (false, e)
end

section
variable {F : Facts} {L : Layout} {c : Cell}

private theorem yes (hF : F.At L c) {e : Expr} (h : F.contains (true, e) = true) : holds L e c :=
  hF _ (List.contains_iff_mem.1 h)

private theorem no (hF : F.At L c) {e : Expr} (h : F.contains (false, e) = true) : ¬ holds L e c :=
  hF _ (List.contains_iff_mem.1 h)

theorem check_sound (hF : F.At L c) : ∀ (e : Expr),
    (proves F e = true → holds L e c) ∧ (refutes F e = true → ¬ holds L e c)
  | .and a b => by
    obtain ⟨a1, a2⟩ := check_sound hF a
    obtain ⟨b1, b2⟩ := check_sound hF b
    simp only [proves, refutes, Bool.and_eq_true, Bool.or_eq_true]
    refine ⟨fun h => ⟨a1 h.1, b1 h.2⟩, ?_⟩
    rintro ((h | h) | h) h'
    · exact no hF h h'
    · exact a2 h h'.1
    · exact b2 h h'.2
  | .or a b => by
    obtain ⟨a1, a2⟩ := check_sound hF a
    obtain ⟨b1, b2⟩ := check_sound hF b
    simp only [proves, refutes, Bool.and_eq_true, Bool.or_eq_true]
    refine ⟨?_, ?_⟩
    · rintro ((h | h) | h)
      · exact yes hF h
      · exact .inl (a1 h)
      · exact .inr (b1 h)
    · rintro (h | h) h'
      · exact no hF h h'
      · exact h'.elim (a2 h.1) (b2 h.2)
  | .diff a b => by
    obtain ⟨a1, a2⟩ := check_sound hF a
    obtain ⟨b1, b2⟩ := check_sound hF b
    simp only [proves, refutes, Bool.and_eq_true, Bool.or_eq_true]
    refine ⟨fun h => ⟨a1 h.1, b2 h.2⟩, ?_⟩
    rintro ((h | h) | h) h'
    · exact no hF h h'
    · exact a2 h h'.1
    · exact h'.2 (b1 h)
  | .some n a => by
    obtain ⟨a1, a2⟩ := check_sound hF a
    simp only [proves, refutes, Bool.or_eq_true]
    refine ⟨fun h => yes hF h, ?_⟩
    rintro (h | h) h'
    · exact no hF h h'
    · exact a2 h h'.1
  | .drawn _ _ | .text _ _ | .other _ | .made _ _ => by
    simp only [proves, refutes]
    exact ⟨fun h => yes hF h, fun h => no hF h⟩
end

/-- The facts contradict each other. -/
def contradictory (F : Facts) : Bool := F.any fun f => !f.1 && proves F f.2

theorem contradictory_sound {F : Facts} {L : Layout} {c : Cell} (hF : F.At L c) (h : contradictory F = true) : False := by
  obtain ⟨⟨b, e⟩, hf, h⟩ := List.any_eq_true.1 h
  rw [Bool.and_eq_true] at h
  obtain rfl : b = false := by simpa using h.1
  exact hF _ hf ((check_sound hF e).1 h.2)

/-- `connect(l, m)` or `connect(m, l)` is in the script. -/
def joins (s : Script) (l m : String) : Bool := s.connects.contains (l, m) || s.connects.contains (m, l)

theorem joins_sound {s : Script} {touch : Cell → Cell → Prop} (hsym : ∀ c c', touch c c' → touch c' c) {L : Layout}
    {l m : String} {c c' : Cell} (h : joins s l m = true) (ht : touch c c') (hc : s.Lies L l c) (hc' : s.Lies L m c') :
    SameNet s touch L (l, c) (m, c') := by
  rw [joins, Bool.or_eq_true, List.contains_iff_mem, List.contains_iff_mem] at h
  exact h.elim (fun h => .across h ht hc hc') fun h => .symm (.across h (hsym _ _ ht) hc' hc)

/-- From a place where the facts hold, the layer `l` at a touching place is reached from `v` by at most `n + 1` `connect`
statements. -/
def reach (s : Script) (F : Facts) : Nat → String → String → Bool
  | 0, v, l => joins s v l
  | n + 1, v, l => joins s v l || s.layers.any fun m => joins s v m.1 && proves F m.2 && reach s F n m.1 l

theorem reach_sound {s : Script} {touch : Cell → Cell → Prop} (hrefl : ∀ c, touch c c)
    (hsym : ∀ c c', touch c c' → touch c' c) {L : Layout} {F : Facts} {c c' : Cell} (hF : F.At L c) (ht : touch c c')
    {l : String} (hl : s.Lies L l c') : ∀ (n : Nat) {v : String}, s.Lies L v c → reach s F n v l = true →
      SameNet s touch L (v, c) (l, c')
  | 0, _, hv, h => joins_sound hsym h ht hv hl
  | n + 1, _, hv, h => by
    rw [reach, Bool.or_eq_true] at h
    rcases h with h | h
    · exact joins_sound hsym h ht hv hl
    · obtain ⟨m, hm, h⟩ := List.any_eq_true.1 h
      simp only [Bool.and_eq_true] at h
      have hm' : s.Lies L m.1 c := ⟨_, hm, (check_sound hF _).1 h.1.2⟩
      exact (joins_sound hsym h.1.1 (hrefl c) hv hm').trans (reach_sound hrefl hsym hF ht hl n hm' h.2)

/-- At one place, two layers are in one net under the facts `F`: by `connect` statements, or because they have no shapes at
one place. -/
def together (s : Script) (F : Facts) (v l : String × Expr) : Bool :=
  v.1 == l.1 || contradictory (F ++ present v.2 ++ present l.2) || reach s (F ++ present v.2 ++ present l.2) 2 v.1 l.1

theorem together_sound {s : Script} {touch : Cell → Cell → Prop} (hrefl : ∀ c, touch c c)
    (hsym : ∀ c c', touch c c' → touch c' c) {L : Layout} {F : Facts} {c : Cell} (hF : F.At L c) {v l : String × Expr}
    (hv : v ∈ s.layers) (hl : l ∈ s.layers) (hvc : holds L v.2 c) (hlc : holds L l.2 c) (h : together s F v l = true) :
    SameNet s touch L (v.1, c) (l.1, c) := by
  have hA := (hF.append (present_sound _ hvc)).append (present_sound _ hlc)
  simp only [together, Bool.or_eq_true] at h
  rcases h with (h | h) | h
  · rw [eq_of_beq h]
    exact .refl _
  · exact (contradictory_sound hA h).elim
  · exact reach_sound hrefl hsym hA (hrefl c) ⟨_, hl, hlc⟩ 2 ⟨_, hv, hvc⟩ h

/-- At touching places, two layers are in one net if the facts `F` hold at the first place. -/
def nextTo (s : Script) (F : Facts) (v l : String × Expr) : Bool := v.1 == l.1 || reach s (F ++ present v.2) 1 v.1 l.1

theorem nextTo_sound {s : Script} {touch : Cell → Cell → Prop} (hrefl : ∀ c, touch c c)
    (hsym : ∀ c c', touch c c' → touch c' c) {L : Layout} {F : Facts} {c c' : Cell} (hF : F.At L c) (ht : touch c c')
    {v l : String × Expr} (hv : v ∈ s.layers) (hl : l ∈ s.layers) (hvc : holds L v.2 c) (hlc : holds L l.2 c')
    (h : nextTo s F v l = true) : SameNet s touch L (v.1, c) (l.1, c') := by
  simp only [nextTo, Bool.or_eq_true] at h
  rcases h with h | h
  · rw [← eq_of_beq h]
    exact .within ht ⟨_, hv, hvc⟩ ⟨l.2, by rw [eq_of_beq h]; exact hl, hlc⟩
  · exact reach_sound hrefl hsym (hF.append (present_sound _ hvc)) ht ⟨_, hl, hlc⟩ 1 ⟨_, hv, hvc⟩ h

/-! ### Layers that are apart -/

/-- A layout with shapes on the drawn layers `ps` at the place (0, 0), on `qs` at the place (1, 0), and nothing else. -/
def spots (ps qs : List (Nat × Nat)) : Layout where
  drawn l d c := (c = (0, 0) ∧ (l, d) ∈ ps) ∨ (c = (1, 0) ∧ (l, d) ∈ qs)
  text _ _ _ := False
  other _ _ := False

/-- A layout with shapes on the drawn layers `ps` at the place (0, 0) and nothing else. -/
def spot (ps : List (Nat × Nat)) : Layout := spots ps []

/-- A derived layer at a place with shapes on the drawn layers `ps`. -/
def spotHas (ps : List (Nat × Nat)) : Expr → Bool
  | .drawn l d => decide ((l, d) ∈ ps)
  | .and a b => spotHas ps a && spotHas ps b
  | .or a b => spotHas ps a || spotHas ps b
  | .diff a b => spotHas ps a && !spotHas ps b
  | _ => false

theorem spotHas_iff (ps qs : List (Nat × Nat)) : ∀ e, (holds (spots ps qs) e (0, 0) ↔ spotHas ps e = true) ∧
    (holds (spots ps qs) e (1, 0) ↔ spotHas qs e = true)
  | .drawn l d => by simp [holds, spots, spotHas]
  | .text _ _ => by simp [holds, spots, spotHas]
  | .other _ => by simp [holds, spots, spotHas]
  | .and a b => by simp [holds, spotHas, spotHas_iff ps qs a, spotHas_iff ps qs b]
  | .or a b => by simp [holds, spotHas, spotHas_iff ps qs a, spotHas_iff ps qs b]
  | .diff a b => by simp [holds, spotHas, spotHas_iff ps qs a, spotHas_iff ps qs b]
  | .some n a => by simp [holds, spots, spotHas]
  | .made n a => by simp [holds, spots, spotHas]

theorem spot_place (ps qs : List (Nat × Nat)) {c : Cell} : ∀ e, holds (spots ps qs) e c → c = (0, 0) ∨ c = (1, 0)
  | .drawn _ _, h => h.imp And.left And.left
  | .and a _, h => spot_place ps qs a h.1
  | .or a b, h => h.elim (spot_place ps qs a) (spot_place ps qs b)
  | .diff a _, h => spot_place ps qs a h.1
  | .some _ a, h => spot_place ps qs a h.1

/-- No `connect` statement joins the layers `side` with the others in `spots ps qs`. -/
def cut (s : Script) (ps qs : List (Nat × Nat)) (side : List String) : Bool :=
  s.connects.all fun p => side.contains p.1 == side.contains p.2 ||
    s.layers.all (fun l => !(l.1 == p.1) || !(spotHas ps l.2 || spotHas qs l.2)) ||
    s.layers.all fun l => !(l.1 == p.2) || !(spotHas ps l.2 || spotHas qs l.2)

theorem cut_sound {s : Script} {ps qs : List (Nat × Nat)} {side : List String} (h : cut s ps qs side = true)
    {touch : Cell → Cell → Prop} {x y : String × Cell} (hxy : SameNet s touch (spots ps qs) x y) :
    (x.1 ∈ side ↔ y.1 ∈ side) := by
  have has : ∀ {l : String} {c : Cell}, s.Lies (spots ps qs) l c →
      ∃ e, (l, e) ∈ s.layers ∧ (spotHas ps e || spotHas qs e) = true := by
    rintro l c ⟨e, he, hc⟩
    refine ⟨e, he, Bool.or_eq_true_iff.2 ?_⟩
    rcases spot_place ps qs e hc with rfl | rfl
    · exact .inl ((spotHas_iff ps qs e).1.1 hc)
    · exact .inr ((spotHas_iff ps qs e).2.1 hc)
  have none : ∀ {l : String} {c : Cell}, s.Lies (spots ps qs) l c →
      s.layers.all (fun k => !(k.1 == l) || !(spotHas ps k.2 || spotHas qs k.2)) = true → False := by
    intro l c hl h
    obtain ⟨e, he, hs⟩ := has hl
    have := List.all_eq_true.1 h _ he
    rw [hs] at this
    simp at this
  induction hxy with
  | refl => exact Iff.rfl
  | symm _ ih => exact ih.symm
  | trans _ _ ih1 ih2 => exact ih1.trans ih2
  | within => exact Iff.rfl
  | @across l m c c' hlm ht hc hc' =>
    have := List.all_eq_true.1 h _ hlm
    simp only [Bool.or_eq_true] at this
    rcases this with (h1 | h1) | h1
    · have h1 := eq_of_beq h1
      constructor
      · intro hl
        exact List.contains_iff_mem.1 (h1 ▸ List.contains_iff_mem.2 hl)
      · intro hm
        exact List.contains_iff_mem.1 (h1.symm ▸ List.contains_iff_mem.2 hm)
    · exact (none hc (by simpa [Bool.or_eq_true] using h1)).elim
    · exact (none hc' (by simpa [Bool.or_eq_true] using h1)).elim

theorem lies_spot {s : Script} {ps : List (Nat × Nat)} {a : String}
    (h : s.layers.any (fun l => l.1 == a && spotHas ps l.2) = true) :
    (∀ qs, s.Lies (spots ps qs) a (0, 0)) ∧ ∀ qs, s.Lies (spots qs ps) a (1, 0) := by
  obtain ⟨⟨n, e⟩, he, hx⟩ := List.any_eq_true.1 h
  rw [Bool.and_eq_true] at hx
  obtain rfl := eq_of_beq hx.1
  exact ⟨fun qs => ⟨e, he, (spotHas_iff ps qs e).1.2 hx.2⟩, fun qs => ⟨e, he, (spotHas_iff qs ps e).2.2 hx.2⟩⟩

/-- The layers `a` and `b` have shapes at (0, 0) of `spot ps` and are told apart by the cut. -/
def apart (s : Script) (ps : List (Nat × Nat)) (side : List String) (a b : String) : Bool :=
  cut s ps [] side && s.layers.any (fun l => l.1 == a && spotHas ps l.2) &&
    s.layers.any (fun l => l.1 == b && spotHas ps l.2) && side.contains a && !side.contains b

theorem apart_sound {s : Script} {ps : List (Nat × Nat)} {side : List String} {a b : String}
    (h : apart s ps side a b = true) :
    s.Lies (spot ps) a (0, 0) ∧ s.Lies (spot ps) b (0, 0) ∧
      ∀ touch, ¬ SameNet s touch (spot ps) (a, (0, 0)) (b, (0, 0)) := by
  simp only [apart, Bool.and_eq_true] at h
  obtain ⟨⟨⟨⟨hc, ha⟩, hb⟩, ha'⟩, hb'⟩ := h
  refine ⟨(lies_spot ha).1 _, (lies_spot hb).1 _, fun touch hs => ?_⟩
  have := (cut_sound hc hs).1 (List.contains_iff_mem.1 ha')
  rw [← List.contains_iff_mem] at this
  rw [this] at hb'
  exact absurd hb' (by decide)

/-- The layer `a` has a shape at (0, 0) and `b` one at (1, 0) of `spots ps qs`, and they are told apart by the cut. -/
def apartNext (s : Script) (ps qs : List (Nat × Nat)) (side : List String) (a b : String) : Bool :=
  cut s ps qs side && s.layers.any (fun l => l.1 == a && spotHas ps l.2) &&
    s.layers.any (fun l => l.1 == b && spotHas qs l.2) && side.contains a && !side.contains b

theorem apartNext_sound {s : Script} {ps qs : List (Nat × Nat)} {side : List String} {a b : String}
    (h : apartNext s ps qs side a b = true) :
    s.Lies (spots ps qs) a (0, 0) ∧ s.Lies (spots ps qs) b (1, 0) ∧
      ∀ touch, ¬ SameNet s touch (spots ps qs) (a, (0, 0)) (b, (1, 0)) := by
  simp only [apartNext, Bool.and_eq_true] at h
  obtain ⟨⟨⟨⟨hc, ha⟩, hb⟩, ha'⟩, hb'⟩ := h
  refine ⟨(lies_spot ha).1 _, (lies_spot hb).2 _, fun touch hs => ?_⟩
  have := (cut_sound hc hs).1 (List.contains_iff_mem.1 ha')
  rw [← List.contains_iff_mem] at this
  rw [this] at hb'
  exact absurd hb' (by decide)

end Verif.LvsRules
