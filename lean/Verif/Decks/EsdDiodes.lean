import Verif.Decks.SkyBjt

/-!
# The ESD diodes of sg13g2

The selection of bases and collectors of the ESD diodes of 2 kV and 4 kV (pdk/ihp_sg13g2/libs.tech/kpex/rule_decks/esd_derivations.lvs 49–117). The
four kinds (diodevdd, diodevss, idiodevdd, idiodevss) have the same selections on layers of their own. Shapes are given with their bounding
boxes; where the boxes of different diodes have no common point, this is exact. Left out: the layers of the shapes, and the extraction
itself, which is `bjt3` of KLayout.
-/

namespace Verif.Decks.HvNpn

/-- `x.interacting(x.extents.interacting(y, n, n))`; esd_derivations.lvs 53, 56, 59, 60 for diodevdd, and the same for the other kinds. -/
def chosen (parts others : List Part) (n : Nat) : List Part :=
  parts.filter fun p => (parts.filter fun q => (others.filter q.touches).length == n).any p.touches

/-- `diodevdd_2kv_b`, `diodevdd_4kv_b`: bases with one or two emitters; esd_derivations.lvs 53 and 59. -/
def esdBases (kv4 : Bool) (bs es : List Part) : List Part := chosen bs es (if kv4 then 2 else 1)

/-- `diodevdd_2kv_c`, `diodevdd_4kv_c`: collectors with one of these bases; esd_derivations.lvs 56 and 60. -/
def esdCollectors (kv4 : Bool) (cs bs es : List Part) : List Part := chosen cs (esdBases kv4 bs es) 1

/-! ### Specification -/

/-- An ESD diode: a collector around a base around emitters. -/
structure Esd where
  c : Part
  b : Part
  es : List Part

/-- The emitters lie in the base, and the base in the collector. -/
def Esd.Nested (t : Esd) : Prop :=
  Within t.c.box t.c.box ∧ Within t.b.box t.c.box ∧ ∀ e ∈ t.es, Within e.box t.b.box

/-! ### Proofs -/

theorem esd_clear_of_ne : ∀ {ts : List Esd}, ts.Pairwise (fun s t => Clear s.c.box t.c.box) → ∀ {s t : Esd}, s ∈ ts → t ∈ ts → s ≠ t →
    Clear s.c.box t.c.box
  | [], _, _, _, hs, _, _ => by cases hs
  | _ :: _, ha, _, _, hs, ht, hne => by
    rw [List.pairwise_cons] at ha
    rcases List.mem_cons.1 hs with rfl | hs' <;> rcases List.mem_cons.1 ht with rfl | ht'
    · exact absurd rfl hne
    · exact ha.1 _ ht'
    · exact clear_symm (ha.1 _ hs')
    · exact esd_clear_of_ne ha.2 hs' ht' hne

theorem touching_none {q : Part} {r : Rectangle} (hq : Within q.box r) {g : Esd → List Part} {ts : List Esd}
    (h : ∀ t ∈ ts, Clear r t.c.box) (hg : ∀ t ∈ ts, ∀ p ∈ g t, Within p.box t.c.box) : (ts.flatMap g).filter q.touches = [] := by
  rw [List.filter_eq_nil_iff]
  intro p hp
  obtain ⟨t, ht, hpt⟩ := List.mem_flatMap.1 hp
  rw [touches_clear hq (hg t ht p hpt) (h t ht)]
  decide

/-- A part of a diode touches exactly the shapes of its own diode. -/
theorem touching_own {ts : List Esd} (ha : ts.Pairwise fun s t => Clear s.c.box t.c.box) {f : Esd → Part} {g : Esd → List Part}
    (hf : ∀ t ∈ ts, Within (f t).box t.c.box) (hg : ∀ t ∈ ts, ∀ p ∈ g t, Within p.box (f t).box) {t : Esd} (ht : t ∈ ts) :
    (ts.flatMap g).filter (f t).touches = g t := by
  obtain ⟨l, r, rfl⟩ := List.append_of_mem ht
  rw [List.pairwise_append, List.pairwise_cons] at ha
  have hgc : ∀ s ∈ l ++ t :: r, ∀ p ∈ g s, Within p.box s.c.box := fun s hs p hp => within_trans (hg s hs p hp) (hf s hs)
  rw [List.flatMap_append, List.flatMap_cons, List.filter_append, List.filter_append,
    touching_none (hf t ht) (fun s hs => clear_symm (ha.2.2 s hs t (.head _))) fun s hs => hgc s (List.mem_append_left _ hs),
    touching_none (hf t ht) ha.2.1.1 fun s hs => hgc s (List.mem_append_right _ (.tail _ hs)),
    List.filter_eq_self.2 fun p hp => touches_within (hg t ht p hp)]
  simp

theorem chosen_own {ts : List Esd} (ha : ts.Pairwise fun s t => Clear s.c.box t.c.box) {f : Esd → Part} {g : Esd → List Part}
    (hf : ∀ t ∈ ts, Within (f t).box t.c.box) (hg : ∀ t ∈ ts, ∀ p ∈ g t, Within p.box (f t).box) (n : Nat) :
    chosen (ts.map f) (ts.flatMap g) n = (ts.filter fun t => (g t).length == n).map f := by
  rw [chosen, List.filter_map]
  congr 1
  refine List.filter_congr fun t ht => ?_
  rw [Bool.eq_iff_iff]
  simp only [Function.comp, List.any_eq_true, List.mem_filter, List.mem_map]
  constructor
  · rintro ⟨q, ⟨⟨s, hs, rfl⟩, h1⟩, h2⟩
    have : t = s := by
      by_contra hne
      rw [touches_clear (hf t ht) (hf s hs) (esd_clear_of_ne ha ht hs hne)] at h2
      cases h2
    subst this
    rwa [touching_own ha hf hg ht] at h1
  · intro h
    refine ⟨f t, ⟨⟨t, ht, rfl⟩, ?_⟩, touches_within (within_self (hf t ht))⟩
    rwa [touching_own ha hf hg ht]

/-- **C151, partial.** The bases and collectors of the diodes of 2 kV are exactly those of the diodes with one emitter, those of 4 kV of the
diodes with two, whatever other diodes there are. Missing: diodes in a common collector, for which it is false (`esd_shared_ring`). -/
theorem esd_exact_partial {ts : List Esd} (hn : ∀ t ∈ ts, t.Nested) (ha : ts.Pairwise fun s t => Clear s.c.box t.c.box) (kv4 : Bool) :
    esdBases kv4 (ts.map (·.b)) (ts.flatMap (·.es)) = (ts.filter fun t => t.es.length == if kv4 then 2 else 1).map (·.b) ∧
    esdCollectors kv4 (ts.map (·.c)) (ts.map (·.b)) (ts.flatMap (·.es)) =
      (ts.filter fun t => t.es.length == if kv4 then 2 else 1).map (·.c) := by
  unfold esdCollectors esdBases
  generalize (if kv4 = true then 2 else 1 : Nat) = n
  have hb : chosen (ts.map (·.b)) (ts.flatMap (·.es)) n = (ts.filter fun t => t.es.length == n).map (·.b) :=
    chosen_own ha (fun t h => (hn t h).2.1) (fun t h => (hn t h).2.2) _
  refine ⟨hb, ?_⟩
  have hl : (ts.filter fun t => t.es.length == n).map (·.b) =
      ts.flatMap fun t => if (t.es.length == n) = true then [t.b] else [] := by
    clear hb ha hn
    induction ts with
    | nil => rfl
    | cons t ts ih =>
      rw [List.filter_cons, List.flatMap_cons, ← ih]
      split <;> rfl
  rw [hb, hl, chosen_own (f := (·.c)) ha (fun t h => (hn t h).1)]
  · congr 1
    refine List.filter_congr fun t _ => ?_
    split
    · next h => rw [h]; rfl
    · next h => rw [Bool.not_eq_true] at h; rw [h]; rfl
  · intro t h p hp
    split at hp
    · rw [List.mem_singleton] at hp
      rw [hp]
      exact (hn t h).2.1
    · cases hp

/-- C151: a diode with no emitter or with more than two is lost. -/
theorem esd_lost {t : Esd} (hn : t.Nested) (h : t.es.length ≠ 1) (h' : t.es.length ≠ 2) (kv4 : Bool) : esdBases kv4 [t.b] t.es = [] := by
  have := (esd_exact_partial (ts := [t]) (by simpa using hn) (by simp) kv4).1
  simp only [List.map_cons, List.map_nil, List.flatMap_cons, List.flatMap_nil, List.append_nil] at this
  rw [this]
  cases kv4 <;> simp [h, h']

/-- Violation: of two diodes of the same voltage in a common collector, the collector is not selected, so both are lost. -/
theorem esd_shared_ring {c b b' : Part} (hb : Within b.box c.box) (hb' : Within b'.box c.box) : chosen [c] [b, b'] 1 = [] := by
  simp [chosen, touches_within hb, touches_within hb']

/-- A diode of 2 kV next to one of 4 kV; one with three emitters; and two of 2 kV in one collector. -/
theorem esd_ex :
    let s : Esd := ⟨⟨⟨0, 0, 100, 100⟩, 1⟩, ⟨⟨10, 10, 90, 90⟩, 2⟩, [⟨⟨20, 20, 30, 80⟩, 3⟩]⟩
    let t : Esd := ⟨⟨⟨110, 0, 210, 100⟩, 4⟩, ⟨⟨120, 10, 200, 90⟩, 5⟩, [⟨⟨130, 20, 140, 80⟩, 6⟩, ⟨⟨150, 20, 160, 80⟩, 7⟩]⟩
    s.Nested ∧ t.Nested ∧ [s, t].Pairwise (fun s t => Clear s.c.box t.c.box) ∧
      (esdBases false [s.b, t.b] (s.es ++ t.es)).map (·.net) = [2] ∧ (esdBases true [s.b, t.b] (s.es ++ t.es)).map (·.net) = [5] ∧
      (esdCollectors false [s.c, t.c] [s.b, t.b] (s.es ++ t.es)).map (·.net) = [1] ∧
      (esdCollectors true [s.c, t.c] [s.b, t.b] (s.es ++ t.es)).map (·.net) = [4] ∧
      (esdBases true [t.b] (⟨⟨170, 20, 180, 80⟩, 8⟩ :: t.es)).map (·.net) = [] ∧
      (esdCollectors false [⟨⟨0, 0, 210, 100⟩, 1⟩] [s.b, t.b] (s.es ++ t.es.take 1)).map (·.net) = [] := by
  refine ⟨by simp [Esd.Nested, Within], by simp [Esd.Nested, Within], by simp [Clear], by decide, by decide, by decide, by decide,
    by decide, by decide⟩

end Verif.Decks.HvNpn
