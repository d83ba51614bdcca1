import Verif.Lvs.Lemmas

/-!
# Every layer of the LVS database is accounted for exactly once (C45)
-/

namespace Verif.Lvs

open TechInfo (Tech GDSPair Kind ComputedLayer IsLast computedByName)
open Shapes (Polygon)

/-! ### Specification -/

/-- With blackboxed devices, the layers of resistor and capacitor devices are left out. -/
def LeftOut (blackbox : Bool) (c : ComputedLayer) : Prop :=
  blackbox = true ∧ (c.kind = .deviceResistor ∨ c.kind = .deviceCapacitor)

/-- `s` describes the known, non-empty layer at its position of the LVS database: name and shapes of the layer and the
GDS pair that the technology gives for the name. -/
def Source (t : Tech) (blackbox : Bool) (db : List DbLayer) (s : ExtractedLayer) : Prop :=
  ∃ l c, db[s.idx]? = some l ∧ l.shapes ≠ [] ∧ Known t l.name c ∧ ¬ LeftOut blackbox c ∧
    s = ⟨s.idx, l.name, c.info.drw, l.shapes⟩

/-- `s` describes the non-empty layer at its position whose name the technology does not know, but which has GDS numbers;
it gets an artificial pair. -/
def Unnamed (t : Tech) (db : List DbLayer) (s : ExtractedLayer) : Prop :=
  ∃ l, db[s.idx]? = some l ∧ l.shapes ≠ [] ∧ (∀ c ∈ t.computed, c.info.name ≠ l.name) ∧ l.info ≠ none ∧
    s = ⟨s.idx, l.name, (1000 + s.idx, 20), l.shapes⟩

/-! ### Proofs -/

theorem leftOut_iff (bb : Bool) (c : ComputedLayer) : (bb && isDevice c.kind) = true ↔ LeftOut bb c := by
  unfold LeftOut
  rw [Bool.and_eq_true]
  refine and_congr_right fun _ => ?_
  cases c.kind <;> simp [isDevice]

theorem mem_zipIdx (db : List DbLayer) (l : DbLayer) (i : Nat) : (l, i) ∈ db.zipIdx ↔ db[i]? = some l := by
  simpa using List.mem_zipIdx_iff_getElem? (x := (l, i)) (l := db)

theorem mem_named (t : Tech) (bb : Bool) (db : List DbLayer) (s : ExtractedLayer) :
    s ∈ db.zipIdx.filterMap (namedOf t bb) ↔ Source t bb db s := by
  rw [List.mem_filterMap]
  constructor
  · rintro ⟨⟨l, i⟩, hm, hs⟩
    rw [mem_zipIdx] at hm
    unfold namedOf at hs
    by_cases h1 : l.shapes = []
    · simp [h1] at hs
    rw [if_neg h1, Option.bind_eq_some_iff] at hs
    obtain ⟨c, hc, hs⟩ := hs
    by_cases h2 : (bb && isDevice c.kind) = true
    · rw [if_pos h2] at hs; cases hs
    rw [if_neg h2] at hs
    cases hs
    exact ⟨l, c, hm, h1, (known_iff t _ _).1 hc, fun h => h2 ((leftOut_iff bb c).2 h), rfl⟩
  · rintro ⟨l, c, h1, h2, h3, h4, h5⟩
    refine ⟨(l, s.idx), (mem_zipIdx _ _ _).2 h1, ?_⟩
    unfold namedOf
    rw [if_neg h2, (known_iff t _ _).2 h3, Option.bind_some, if_neg (fun h => h4 ((leftOut_iff bb c).1 h))]
    exact congrArg some h5.symm

theorem mem_unnamed (t : Tech) (db : List DbLayer) (s : ExtractedLayer) :
    s ∈ db.zipIdx.filterMap (unnamedOf t) ↔ Unnamed t db s := by
  rw [List.mem_filterMap]
  constructor
  · rintro ⟨⟨l, i⟩, hm, hs⟩
    rw [mem_zipIdx] at hm
    unfold unnamedOf at hs
    by_cases h1 : l.shapes = []
    · simp [h1] at hs
    rw [if_neg h1] at hs
    rcases hc : (computedByName t).get? l.name with _ | c
    · rw [hc] at hs
      simp only [Option.isSome_none, Bool.false_eq_true, if_false, Option.map_eq_some_iff] at hs
      obtain ⟨p, hp, hs⟩ := hs
      subst hs
      exact ⟨l, hm, h1, (known_none t _).1 hc, by simp [hp], rfl⟩
    · rw [hc] at hs; simp at hs
  · rintro ⟨l, h1, h2, h3, h4, h5⟩
    refine ⟨(l, s.idx), (mem_zipIdx _ _ _).2 h1, ?_⟩
    unfold unnamedOf
    rw [if_neg h2, (known_none t _).2 h3]
    obtain ⟨p, hp⟩ := Option.ne_none_iff_exists'.1 h4
    simp only [Option.isSome_none, Bool.false_eq_true, if_false, hp, Option.map_some]
    exact congrArg some h5.symm

theorem zipIdx_sorted (db : List DbLayer) : (db.zipIdx.map Prod.snd).Pairwise (· < ·) := by
  have : db.zipIdx.map Prod.snd = List.range db.length := by
    rw [List.zipIdx_map_snd, List.range_eq_range']
  rw [this]; exact List.pairwise_lt_range

theorem filterMap_sorted (f : DbLayer × Nat → Option ExtractedLayer) (hf : ∀ e s, f e = some s → s.idx = e.2)
    (db : List DbLayer) : ((db.zipIdx.filterMap f).map (·.idx)).Pairwise (· < ·) := by
  have h := zipIdx_sorted db
  rw [List.pairwise_map] at h ⊢
  rw [List.pairwise_filterMap]
  refine h.imp ?_
  intro a b hab s hs s' hs'
  rw [hf a s hs, hf b s' hs']; exact hab

theorem namedOf_idx (t : Tech) (bb : Bool) (e : DbLayer × Nat) (s : ExtractedLayer) (h : namedOf t bb e = some s) :
    s.idx = e.2 := by
  unfold namedOf at h
  by_cases h1 : e.1.shapes = []
  · simp [h1] at h
  rw [if_neg h1, Option.bind_eq_some_iff] at h
  obtain ⟨c, hc, h⟩ := h
  by_cases h2 : (bb && isDevice c.kind) = true
  · rw [if_pos h2] at h; cases h
  rw [if_neg h2] at h
  cases h; rfl

theorem unnamedOf_idx (t : Tech) (e : DbLayer × Nat) (s : ExtractedLayer) (h : unnamedOf t e = some s) :
    s.idx = e.2 := by
  unfold unnamedOf at h
  by_cases h1 : e.1.shapes = []
  · simp [h1] at h
  rw [if_neg h1] at h
  by_cases h2 : ((computedByName t).get? e.1.name).isSome = true
  · rw [if_pos h2] at h; cases h
  rw [if_neg h2, Option.map_eq_some_iff] at h
  obtain ⟨p, _, h⟩ := h
  rw [← h]

theorem toMerged_keys (d : Dict GDSPair (List ExtractedLayer)) : (toMerged d).keys = d.keys := by
  unfold toMerged Dict.keys
  rw [List.map_map]; rfl

theorem groupBy_keys {ε κ ν : Type} [DecidableEq κ] (key : ε → κ) (val : ε → ν) (l : List ε) :
    (groupBy key val l).keys = firsts (l.map key) := by
  rw [groupBy_eq]
  unfold Dict.keys
  rw [List.map_map]
  exact (List.map_id'' (fun _ => rfl) _)

theorem prepare_layers (t : Tech) (bb : Bool) (db : List DbLayer) (hd : (db.map (·.index)).Nodup) :
    (prepare t bb db).layers = ⟨toMerged (groupBy ExtractedLayer.pair id (db.zipIdx.filterMap (namedOf t bb))),
        db.zipIdx.filterMap (unnamedOf t)⟩ := nonemptyLayers_eq t bb db hd

/-- **C45.** The groups of the context have different GDS pairs; the group of a pair consists of the known, non-empty
layers with this pair, each once, in the order of the LVS database, and no group is missing; the unnamed layers are the
unknown, non-empty ones with GDS numbers, each once. -/
theorem layers_exact (t : Tech) (bb : Bool) (db : List DbLayer) (hd : (db.map (·.index)).Nodup) :
    ((prepare t bb db).layers.extracted.keys).Nodup ∧
    (∀ pair m, (pair, m) ∈ (prepare t bb db).layers.extracted →
      m.pair = pair ∧ m.sources ≠ [] ∧ (∀ s, s ∈ m.sources ↔ Source t bb db s ∧ s.pair = pair) ∧
      (m.sources.map (·.idx)).Pairwise (· < ·)) ∧
    (∀ s, Source t bb db s → s.pair ∈ (prepare t bb db).layers.extracted.keys) ∧
    (∀ s, s ∈ (prepare t bb db).layers.unnamed ↔ Unnamed t db s) ∧
    ((prepare t bb db).layers.unnamed.map (·.idx)).Pairwise (· < ·) := by
  rw [prepare_layers t bb db hd]
  simp only [toMerged_keys, groupBy_keys]
  refine ⟨nodup_firsts _, ?_, ?_, mem_unnamed t db, filterMap_sorted _ (unnamedOf_idx t) db⟩
  · intro pair m hm
    rw [groupBy_eq] at hm
    unfold toMerged at hm
    rw [List.map_map, List.mem_map] at hm
    obtain ⟨k, hk, e⟩ := hm
    simp only [Function.comp, Prod.mk.injEq] at e
    obtain ⟨rfl, rfl⟩ := e
    rw [mem_firsts, List.mem_map] at hk
    obtain ⟨s, hs, hsk⟩ := hk
    simp only [List.map_id]
    refine ⟨trivial, ?_, ?_, ?_⟩
    · intro h
      have := List.filter_eq_nil_iff.1 h s hs
      simp [hsk] at this
    · intro s'
      rw [List.mem_filter, mem_named]; simp
    · have := filterMap_sorted _ (namedOf_idx t bb) db
      rw [List.pairwise_map] at this ⊢
      exact this.sublist List.filter_sublist
  · intro s hs
    rw [mem_firsts]
    exact List.mem_map_of_mem ((mem_named t bb db s).2 hs)

/-- **C45, exactly once.** In the groups and the unnamed layers together, the layer at a position of the database occurs
at most once.  A non-empty layer occurs unless it is a device layer and devices are blackboxed, or the technology does not
know its name and it has no GDS numbers. -/
theorem layers_once (t : Tech) (bb : Bool) (db : List DbLayer) (hd : (db.map (·.index)).Nodup) (i : Nat) (l : DbLayer)
    (hl : db[i]? = some l) (hs : l.shapes ≠ []) :
    let all := ((prepare t bb db).layers.extracted.flatMap fun e => e.2.sources) ++ (prepare t bb db).layers.unnamed
    (all.map (·.idx)).count i ≤ 1 ∧
    (i ∈ all.map (·.idx) ↔
      (∃ c, Known t l.name c ∧ ¬ LeftOut bb c) ∨ ((∀ c ∈ t.computed, c.info.name ≠ l.name) ∧ l.info ≠ none)) := by
  intro all
  have hall : all.Perm (db.zipIdx.filterMap (namedOf t bb) ++ db.zipIdx.filterMap (unnamedOf t)) := by
    show (((prepare t bb db).layers.extracted.flatMap fun e => e.2.sources) ++ (prepare t bb db).layers.unnamed).Perm _
    rw [prepare_layers t bb db hd]
    simp only
    refine List.Perm.append_right _ ?_
    have := groupBy_perm ExtractedLayer.pair id (db.zipIdx.filterMap (namedOf t bb))
    rw [List.map_id] at this
    have e : ∀ d : Dict GDSPair (List ExtractedLayer), ((toMerged d).flatMap fun e => e.2.sources) =
        d.flatMap fun e => e.2 := by
      intro d; unfold toMerged; rw [List.flatMap_map]
    rw [e]; exact this
  have hmem : ∀ s, s ∈ all ↔ Source t bb db s ∨ Unnamed t db s := by
    intro s; rw [hall.mem_iff, List.mem_append, mem_named, mem_unnamed]
  constructor
  · refine List.nodup_iff_count.1 ?_ i
    rw [(hall.map _).nodup_iff, List.map_append, List.nodup_append]
    refine ⟨(filterMap_sorted _ (namedOf_idx t bb) db).imp (fun h => Nat.ne_of_lt h),
      (filterMap_sorted _ (unnamedOf_idx t) db).imp (fun h => Nat.ne_of_lt h), ?_⟩
    intro a ha b hb hab
    subst hab
    rw [List.mem_map] at ha hb
    obtain ⟨s, hs1, rfl⟩ := ha
    obtain ⟨s', hs2, he⟩ := hb
    obtain ⟨l1, c, g1, _, g2, _⟩ := (mem_named t bb db s).1 hs1
    obtain ⟨l2, k1, _, k2, _⟩ := (mem_unnamed t db s').1 hs2
    rw [he, g1] at k1; cases k1
    exact k2 c g2.mem g2.prop
  · rw [List.mem_map]
    constructor
    · rintro ⟨s, h, rfl⟩
      rcases (hmem s).1 h with ⟨l', c, g1, _, g3, g4, _⟩ | ⟨l', g1, _, g3, g4, _⟩
      · rw [hl] at g1; cases g1; exact .inl ⟨c, g3, g4⟩
      · rw [hl] at g1; cases g1; exact .inr ⟨g3, g4⟩
    · rintro (⟨c, h1, h2⟩ | ⟨h1, h2⟩)
      · exact ⟨⟨i, l.name, c.info.drw, l.shapes⟩, (hmem _).2 (.inl ⟨l, c, hl, hs, h1, h2, rfl⟩), rfl⟩
      · exact ⟨⟨i, l.name, (1000 + i, 20), l.shapes⟩, (hmem _).2 (.inr ⟨l, hl, hs, h1, h2, rfl⟩), rfl⟩

/-! ### Shapes -/

/-- Specification: `S` are the shapes of the GDS pair: those of all known layers with this pair, layer by layer in the
order of the database. -/
def ShapesOf (t : Tech) (bb : Bool) (db : List DbLayer) (pair : GDSPair) (S : List Polygon) : Prop :=
  ∃ ss : List ExtractedLayer, (∀ s, s ∈ ss ↔ Source t bb db s ∧ s.pair = pair) ∧
    (ss.map (·.idx)).Pairwise (· < ·) ∧ S = ss.flatMap (·.shapes)

theorem foldl_app {α : Type} (l acc : List α) : l.foldl (fun s p => s ++ [p]) acc = acc ++ l := by
  induction l generalizing acc with
  | nil => simp
  | cons a l ih => rw [List.foldl_cons, ih]; simp

theorem foldl_filter {α β : Type} (q : α → Prop) [DecidablePred q] (f : α → β) (l : List α) (acc : List β) :
    l.foldl (fun s p => if q p then s ++ [f p] else s) acc = acc ++ (l.filter (fun p => decide (q p))).map f := by
  induction l generalizing acc with
  | nil => simp
  | cons a l ih =>
    rw [List.foldl_cons, ih]
    by_cases h : q a <;> simp [h]

theorem foldl_flat {α β : Type} (g : α → List β) (l : List α) (acc : List β) :
    l.foldl (fun s a => s ++ g a) acc = acc ++ l.flatMap g := by
  induction l generalizing acc with
  | nil => simp
  | cons a l ih => rw [List.foldl_cons, ih]; simp

theorem get?_extracted (t : Tech) (bb : Bool) (db : List DbLayer) (hd : (db.map (·.index)).Nodup) (pair : GDSPair)
    (m : Merged) (h : (prepare t bb db).layers.extracted.get? pair = some m) :
    m.sources ≠ [] ∧ (∀ s, s ∈ m.sources ↔ Source t bb db s ∧ s.pair = pair) ∧
      (m.sources.map (·.idx)).Pairwise (· < ·) :=
  ((layers_exact t bb db hd).2.1 pair m (Dict.mem_of_get? h)).2

/-- **C45, shapes of a layer.** Asking for the shapes of a GDS pair never fails; there are none exactly if no known,
non-empty layer has this pair, and otherwise they are the shapes of all layers with this pair, with their nets. -/
theorem shapes_of_layer_exact (t : Tech) (bb : Bool) (db : List DbLayer) (hd : (db.map (·.index)).Nodup)
    (pair : GDSPair) :
    ((∀ s, Source t bb db s → s.pair ≠ pair) ∧ shapesOfLayer (prepare t bb db) pair = .ok none) ∨
    ((∃ s, Source t bb db s ∧ s.pair = pair) ∧
      ∃ S, shapesOfLayer (prepare t bb db) pair = .ok (some S) ∧ ShapesOf t bb db pair S) := by
  unfold shapesOfLayer
  cases hg : (prepare t bb db).layers.extracted.get? pair with
  | none =>
    refine .inl ⟨?_, rfl⟩
    intro s hs e
    have := (layers_exact t bb db hd).2.2.1 s hs
    rw [e, Dict.mem_keys_iff, hg] at this
    cases this
  | some m =>
    obtain ⟨h1, h2, h3⟩ := get?_extracted t bb db hd pair m hg
    obtain ⟨s0, hs0⟩ := List.exists_mem_of_ne_nil _ h1
    refine .inr ⟨⟨s0, (h2 s0).1 hs0⟩, m.sources.flatMap (·.shapes), ?_, m.sources, h2, h3, rfl⟩
    simp only
    rcases hm : m.sources with _ | ⟨s1, _ | ⟨s2, rest⟩⟩
    · exact absurd hm h1
    · simp
    · simp only
      have e : ∀ (l : List ExtractedLayer) (acc : List Polygon), l.foldl (fun shapes sl =>
          sl.shapes.foldl (fun shapes p => shapes ++ [p]) shapes) acc = acc ++ l.flatMap (·.shapes) := by
        intro l acc
        rw [← foldl_flat]
        congr 1; funext s a; exact foldl_app _ _
      rw [e]; rfl

/-- **C45, shapes of a net.** The shapes of a net on a GDS pair are exactly the shapes of the pair that carry the name of
the net, in order (their label is dropped). -/
theorem shapes_of_net_exact (t : Tech) (bb : Bool) (db : List DbLayer) (hd : (db.map (·.index)).Nodup)
    (pair : GDSPair) (net : String) :
    ((∀ s, Source t bb db s → s.pair ≠ pair) ∧ shapesOfNet (prepare t bb db) pair net = .ok none) ∨
    ((∃ s, Source t bb db s ∧ s.pair = pair) ∧ ∃ S, ShapesOf t bb db pair S ∧
      shapesOfNet (prepare t bb db) pair net = .ok (some
        ((S.filter fun p => p.net = some net).map fun p => ⟨p.hull, p.holes, none⟩))) := by
  unfold shapesOfNet
  cases hg : (prepare t bb db).layers.extracted.get? pair with
  | none =>
    refine .inl ⟨?_, rfl⟩
    intro s hs e
    have := (layers_exact t bb db hd).2.2.1 s hs
    rw [e, Dict.mem_keys_iff, hg] at this
    cases this
  | some m =>
    obtain ⟨h1, h2, h3⟩ := get?_extracted t bb db hd pair m hg
    obtain ⟨s0, hs0⟩ := List.exists_mem_of_ne_nil _ h1
    refine .inr ⟨⟨s0, (h2 s0).1 hs0⟩, m.sources.flatMap (·.shapes), ⟨m.sources, h2, h3, rfl⟩, ?_⟩
    have e : ∀ (l : List ExtractedLayer) (acc : List Polygon), l.foldl (fun shapes sl =>
        sl.shapes.foldl (fun shapes p => if p.net = some net then shapes ++ [{ p with net := none }] else shapes)
          shapes) acc =
        acc ++ ((l.flatMap (·.shapes)).filter fun p => p.net = some net).map fun p => ⟨p.hull, p.holes, none⟩ := by
      intro l acc
      induction l generalizing acc with
      | nil => simp
      | cons s l ih =>
        rw [List.foldl_cons, ih, foldl_filter (fun p : Polygon => p.net = some net), List.flatMap_cons,
          List.filter_append, List.map_append, List.append_assoc]
    simp only
    rcases hm : m.sources with _ | ⟨s1, rest⟩
    · exact absurd hm h1
    · rw [e]; rfl

/-- **C45, nets share out the shapes.** If the names of the nets are different and every shape carries the name of one of
them, the shapes of the nets together are the shapes of the layer, each once. -/
theorem nets_share_shapes (S : List Polygon) (nets : List String) (hn : nets.Nodup)
    (hS : ∀ p ∈ S, ∃ n ∈ nets, p.net = some n) :
    (nets.flatMap fun n => (S.filter fun p => p.net = some n).map fun p => (⟨p.hull, p.holes, none⟩ : Polygon)).Perm
      (S.map fun p => ⟨p.hull, p.holes, none⟩) := by
  have key : ∀ (nets : List String), nets.Nodup → ∀ S : List Polygon, (∀ p ∈ S, ∃ n ∈ nets, p.net = some n) →
      (nets.flatMap fun n => S.filter fun p => p.net = some n).Perm S := by
    intro nets hn
    induction nets with
    | nil =>
      intro S hS
      cases S with
      | nil => simp
      | cons p S => obtain ⟨n, h, _⟩ := hS p List.mem_cons_self; cases h
    | cons n nets ih =>
      intro S hS
      rw [List.flatMap_cons]
      have hrest : (nets.flatMap fun n' => S.filter fun p => p.net = some n').Perm
          (S.filter fun p => !decide (p.net = some n)) := by
        have h2 := ih (List.nodup_cons.1 hn).2 (S.filter fun p => !decide (p.net = some n)) (by
          intro p hp
          rw [List.mem_filter] at hp
          obtain ⟨n', h, he⟩ := hS p hp.1
          rcases List.mem_cons.1 h with rfl | h
          · simp [he] at hp
          · exact ⟨n', h, he⟩)
        refine List.Perm.trans ?_ h2
        rw [List.flatMap_congr (fun n' hn' => ?_)]
        rw [List.filter_filter]
        refine List.filter_congr fun p _ => ?_
        by_cases h : p.net = some n'
        · have : n' ≠ n := fun e => (List.nodup_cons.1 hn).1 (e ▸ hn')
          simp [h, this]
        · simp [h]
      refine (List.Perm.append_left _ hrest).trans ?_
      exact List.filter_append_perm _ S
  have h := (key nets hn S hS).map fun p => (⟨p.hull, p.holes, none⟩ : Polygon)
  rw [List.map_flatMap] at h
  exact h

end Verif.Lvs
