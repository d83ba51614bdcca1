import Verif.Lvs.Model
import Verif.TechInfo.Props
import Mathlib.Data.List.Perm.Basic
import Mathlib.Data.List.Induction

/-!
# Lemmas on the layers of the extraction context
-/

namespace Verif.Lvs

open TechInfo (Tech GDSPair Kind ComputedLayer LayerInfo computedByName computedByPair canonicalByPair layerByPair
  gdsPairForLayer gdsPairForComputed IsLast single_lookups)
open Shapes (Polygon Pt RegionPb)

/-- Specification: `c` is the computed layer with this name (the last one declared). -/
def Known (t : Tech) (name : String) (c : ComputedLayer) : Prop := IsLast (fun c => c.info.name = name) t.computed c

/-- Specification: `c` is the computed layer with this GDS pair (the last one declared). -/
def KnownPair (t : Tech) (pair : GDSPair) (c : ComputedLayer) : Prop := IsLast (fun c => c.info.drw = pair) t.computed c

theorem known_iff (t : Tech) (n : String) (c : ComputedLayer) : (computedByName t).get? n = some c ↔ Known t n c :=
  (single_lookups t).1 n c

theorem known_none (t : Tech) (n : String) : (computedByName t).get? n = none ↔ ∀ c ∈ t.computed, c.info.name ≠ n := by
  unfold computedByName; exact TechInfo.ofList_map_none _ _ _ _

theorem pair_of_name (t : Tech) (n : String) :
    (gdsPairForComputed t).get? n = ((computedByName t).get? n).map fun c => c.info.drw := by
  unfold gdsPairForComputed computedByName
  rw [TechInfo.ofList_map, TechInfo.ofList_map, Option.map_map]; rfl

/-- The pair a layer gets in the layer map, if it is in the map. -/
def pairFor (t : Tech) (blackbox : Bool) (l : DbLayer) : Option GDSPair :=
  if ((computedByName t).get? l.name).elim false (fun c => blackbox && isDevice c.kind) then none
  else ((gdsPairForComputed t).get? l.name).or l.info

theorem layerMapStep_eq (t : Tech) (bb : Bool) (m : LayerMap) (l : DbLayer) :
    layerMapStep t bb m l = (pairFor t bb l).elim m fun p =>
      { map := m.map.set l.index m.infos.length
        infos := m.infos ++ [p]
        regions := m.regions.set m.infos.length l.shapes } := by
  unfold layerMapStep pairFor
  by_cases h : ((computedByName t).get? l.name).elim false (fun c => bb && isDevice c.kind) = true
  · rw [if_pos h, if_pos h]; rfl
  · rw [if_neg h, if_neg h]
    cases ((gdsPairForComputed t).get? l.name).or l.info <;> rfl

/-- Facts about the layer map. -/
structure MapOK (t : Tech) (bb : Bool) (db : List DbLayer) (m : LayerMap) : Prop where
  lt : ∀ i n, m.map.get? i = some n → n < m.infos.length
  from_db : ∀ i n, m.map.get? i = some n → ∃ l ∈ db, l.index = i
  inj : ∀ i j n, m.map.get? i = some n → m.map.get? j = some n → i = j
  miss : ∀ l ∈ db, pairFor t bb l = none → m.map.get? l.index = none
  hit : ∀ l ∈ db, ∀ p, pairFor t bb l = some p →
    ∃ n, m.map.get? l.index = some n ∧ m.infos[n]? = some p ∧ m.regions.get? n = some l.shapes
  len : ∀ p ∈ m.infos, ∃ l ∈ db, pairFor t bb l = some p

theorem mapOK (t : Tech) (bb : Bool) (db : List DbLayer) (hd : (db.map (·.index)).Nodup) :
    MapOK t bb db (buildLayerMap t bb db) := by
  induction db using List.reverseRecOn with
  | nil =>
    exact ⟨(by intro i n h; cases h), (by intro i n h; cases h), (by intro i j n h; cases h), (by simp), (by simp),
      (by intro p hp; cases hp)⟩
  | append_singleton db l ih =>
    have hnd : (db.map (·.index)).Nodup := by
      rw [List.map_append] at hd; exact (List.nodup_append.1 hd).1
    have hfresh : ∀ l' ∈ db, l'.index ≠ l.index := by
      rw [List.map_append, List.nodup_append] at hd
      intro l' hl' e
      exact hd.2.2 _ (List.mem_map_of_mem hl') _ (List.mem_singleton.2 rfl) e
    obtain ⟨h1, h2, h3, h4, h5, h6⟩ := ih hnd
    unfold buildLayerMap at *
    rw [List.foldl_append, List.foldl_cons, List.foldl_nil, layerMapStep_eq]
    generalize db.foldl (layerMapStep t bb) {} = m at *
    have hnone : m.map.get? l.index = none := by
      cases hg : m.map.get? l.index with
      | none => rfl
      | some n => obtain ⟨l', hl', e⟩ := h2 _ _ hg; exact absurd e (hfresh l' hl')
    rcases hp : pairFor t bb l with _ | p
    · simp only [Option.elim_none]
      refine ⟨h1, ?_, h3, ?_, ?_, ?_⟩
      · intro i n h; obtain ⟨l', hl', e⟩ := h2 i n h; exact ⟨l', by simp [hl'], e⟩
      · intro l' hl' e
        rcases List.mem_append.1 hl' with hl' | hl'
        · exact h4 l' hl' e
        · rw [List.mem_singleton] at hl'; subst hl'; exact hnone
      · intro l' hl' p' e
        rcases List.mem_append.1 hl' with hl' | hl'
        · exact h5 l' hl' p' e
        · rw [List.mem_singleton] at hl'; subst hl'; rw [hp] at e; cases e
      · intro p' hp'; obtain ⟨l', hl', e⟩ := h6 p' hp'; exact ⟨l', by simp [hl'], e⟩
    · simp only [Option.elim_some]
      have hget : ∀ i, (Dict.set m.map l.index m.infos.length).get? i =
          if l.index = i then some m.infos.length else m.map.get? i := fun i => Dict.get?_set _ _ _ _
      refine ⟨?_, ?_, ?_, ?_, ?_, ?_⟩
      · intro i n h
        simp only [hget] at h
        simp only [List.length_append, List.length_singleton]
        by_cases e : l.index = i
        · rw [if_pos e] at h; cases h; omega
        · rw [if_neg e] at h; have := h1 i n h; omega
      · intro i n h
        simp only [hget] at h
        by_cases e : l.index = i
        · exact ⟨l, by simp, e⟩
        · rw [if_neg e] at h; obtain ⟨l', hl', e⟩ := h2 i n h; exact ⟨l', by simp [hl'], e⟩
      · intro i j n hi hj
        simp only [hget] at hi hj
        by_cases ei : l.index = i
        · by_cases ej : l.index = j
          · rw [← ei, ← ej]
          · rw [if_pos ei] at hi; rw [if_neg ej] at hj; cases hi
            have := h1 _ _ hj; omega
        · rw [if_neg ei] at hi
          by_cases ej : l.index = j
          · rw [if_pos ej] at hj; cases hj
            have := h1 _ _ hi; omega
          · rw [if_neg ej] at hj; exact h3 _ _ _ hi hj
      · intro l' hl' e
        rcases List.mem_append.1 hl' with hl' | hl'
        · simp only [hget]
          rw [if_neg (fun h => hfresh l' hl' h.symm)]
          exact h4 l' hl' e
        · rw [List.mem_singleton] at hl'; subst hl'; rw [hp] at e; cases e
      · intro l' hl' p' e
        rcases List.mem_append.1 hl' with hl' | hl'
        · obtain ⟨n, g1, g2, g3⟩ := h5 l' hl' p' e
          have hlt := h1 _ _ g1
          refine ⟨n, ?_, ?_, ?_⟩
          · simp only [hget]; rw [if_neg (fun h => hfresh l' hl' h.symm)]; exact g1
          · rw [List.getElem?_append_left hlt]; exact g2
          · simp only [Dict.get?_set]; rw [if_neg (by omega)]; exact g3
        · rw [List.mem_singleton] at hl'; subst hl'; rw [hp] at e; cases e
          refine ⟨m.infos.length, ?_, ?_, ?_⟩
          · simp only [hget]; simp
          · simp
          · simp only [Dict.get?_set]; simp
      · intro p' hp'
        rcases List.mem_append.1 hp' with hp' | hp'
        · obtain ⟨l', hl', e⟩ := h6 p' hp'; exact ⟨l', by simp [hl'], e⟩
        · rw [List.mem_singleton] at hp'; subst hp'; exact ⟨l, by simp, hp⟩

/-! ### Groups -/

/-- The entry of a known layer. -/
def namedOf (t : Tech) (bb : Bool) (e : DbLayer × Nat) : Option ExtractedLayer :=
  if e.1.shapes = [] then none
  else ((computedByName t).get? e.1.name).bind fun c =>
    if bb && isDevice c.kind then none else some ⟨e.2, e.1.name, c.info.drw, e.1.shapes⟩

/-- The entry of an unknown layer. -/
def unnamedOf (t : Tech) (e : DbLayer × Nat) : Option ExtractedLayer :=
  if e.1.shapes = [] then none
  else if ((computedByName t).get? e.1.name).isSome then none
  else e.1.info.map fun _ => ⟨e.2, e.1.name, (1000 + e.2, 20), e.1.shapes⟩

/-- Groups as a dictionary of merged layers. -/
def toMerged (d : Dict GDSPair (List ExtractedLayer)) : Dict GDSPair Merged := d.map fun e => (e.1, ⟨e.2, e.1⟩)

theorem toMerged_get? (d : Dict GDSPair (List ExtractedLayer)) (k : GDSPair) :
    (toMerged d).get? k = (d.get? k).map fun l => ⟨l, k⟩ := by
  induction d with
  | nil => rfl
  | cons e d ih =>
    obtain ⟨k', v⟩ := e
    have : toMerged ((k', v) :: d) = (k', ⟨v, k'⟩) :: toMerged d := rfl
    rw [this, Dict.get?_cons, Dict.get?_cons, ih]
    by_cases h : k' = k
    · subst h; simp
    · simp [h]

theorem toMerged_set (d : Dict GDSPair (List ExtractedLayer)) (k : GDSPair) (v : List ExtractedLayer) :
    toMerged (d.set k v) = (toMerged d).set k ⟨v, k⟩ := by
  induction d with
  | nil => rfl
  | cons e d ih =>
    obtain ⟨k', v'⟩ := e
    have h1 : toMerged ((k', v') :: d) = (k', ⟨v', k'⟩) :: toMerged d := rfl
    rw [h1]
    by_cases h : k' = k
    · subst h; simp [Dict.set, toMerged]
    · simp only [Dict.set, h, if_false]
      rw [← ih]; rfl

theorem nonemptyStep_eq (t : Tech) (bb : Bool) (db : List DbLayer) (hd : (db.map (·.index)).Nodup)
    (d : Dict GDSPair (List ExtractedLayer)) (u : List ExtractedLayer) (e : DbLayer × Nat) (he : e.1 ∈ db) :
    nonemptyStep t bb (buildLayerMap t bb db) ⟨toMerged d, u⟩ e =
      ⟨toMerged ((namedOf t bb e).elim d fun s => Dict.push d s.pair s), u ++ (unnamedOf t e).toList⟩ := by
  have ok := mapOK t bb db hd
  generalize buildLayerMap t bb db = m at ok
  obtain ⟨l, i⟩ := e
  simp only at he
  unfold nonemptyStep
  rcases hp : pairFor t bb l with _ | p
  · -- not in the map
    simp only [ok.miss l he hp]
    unfold pairFor at hp
    unfold namedOf unnamedOf
    by_cases hs : l.shapes = []
    · simp [hs]
    rcases hc : (computedByName t).get? l.name with _ | c
    · rw [hc] at hp
      simp only [Option.elim_none, Bool.false_eq_true, if_false] at hp
      rw [Option.or_eq_none_iff] at hp
      simp [hp.2]
    · simp only [hc, Option.elim_some, pair_of_name, Option.map_some, Option.some_or] at hp
      simp only [if_neg hs, Option.bind_some, Option.isSome_some, if_true, Option.toList_none, List.append_nil]
      generalize (bb && isDevice c.kind) = b at hp ⊢
      cases b
      · cases hp
      · rfl
  · obtain ⟨n, g1, _, g3⟩ := ok.hit l he p hp
    simp only [g1, Dict.getD, g3, Option.getD_some]
    unfold namedOf unnamedOf
    by_cases hs : l.shapes = []
    · simp [hs]
    have hlen : l.shapes.length ≥ 1 := List.length_pos_iff.2 hs
    rw [if_pos hlen]
    simp only [if_neg hs]
    rcases hc : (computedByName t).get? l.name with _ | c
    · unfold pairFor at hp
      rw [hc] at hp
      simp only [Option.elim_none, Bool.false_eq_true, if_false] at hp
      rw [pair_of_name, hc] at hp
      simp only [Option.map_none, Option.none_or] at hp
      simp [hp]
    · simp only [Option.bind_some]
      generalize (bb && isDevice c.kind) = b
      cases b
      case true => simp
      case false =>
        simp only [Option.isSome_some, if_true, Bool.false_eq_true, if_false, Option.elim_some, Option.toList_none,
          List.append_nil]
        rw [toMerged_get?, Dict.push, Dict.upd, toMerged_set, Dict.getD]
        cases hg : Dict.get? d c.info.drw with
        | none => rfl
        | some v => rfl

theorem nonemptyLayers_eq (t : Tech) (bb : Bool) (db : List DbLayer) (hd : (db.map (·.index)).Nodup) :
    nonemptyLayers t bb (buildLayerMap t bb db) db =
      ⟨toMerged (groupBy ExtractedLayer.pair id (db.zipIdx.filterMap (namedOf t bb))),
        db.zipIdx.filterMap (unnamedOf t)⟩ := by
  have key : ∀ (L : List (DbLayer × Nat)) (d : Dict GDSPair (List ExtractedLayer)) (u : List ExtractedLayer),
      (∀ e ∈ L, e.1 ∈ db) →
      L.foldl (nonemptyStep t bb (buildLayerMap t bb db)) ⟨toMerged d, u⟩ =
        ⟨toMerged ((L.filterMap (namedOf t bb)).foldl (fun d s => Dict.push d s.pair s) d),
          u ++ L.filterMap (unnamedOf t)⟩ := by
    intro L
    induction L with
    | nil => intro d u _; simp
    | cons e L ih =>
      intro d u hL
      rw [List.foldl_cons, nonemptyStep_eq t bb db hd d u e (hL e List.mem_cons_self),
        ih _ _ (fun e he => hL e (List.mem_cons_of_mem _ he))]
      cases h1 : namedOf t bb e <;> cases h2 : unnamedOf t e <;> simp [h1, h2]
  have := key db.zipIdx [] [] (fun e he => by
    obtain ⟨l, i⟩ := e
    have := List.mem_zipIdx_iff_getElem?.1 he
    exact List.mem_of_getElem? this)
  unfold nonemptyLayers groupBy
  exact this

/-- Nothing is lost or duplicated by grouping. -/
theorem groupBy_perm {ε κ ν : Type} [DecidableEq κ] (key : ε → κ) (val : ε → ν) (l : List ε) :
    ((groupBy key val l).flatMap fun e => e.2).Perm (l.map val) := by
  have push : ∀ (d : Dict κ (List ν)) (k : κ) (v : ν),
      ((Dict.push d k v).flatMap fun e => e.2).Perm ((d.flatMap fun e => e.2) ++ [v]) := by
    intro d k v
    induction d with
    | nil => simp [Dict.push, Dict.upd, Dict.set, Dict.getD, Dict.get?]
    | cons e d ih =>
      obtain ⟨k', w⟩ := e
      by_cases h : k' = k
      · subst h
        simp only [Dict.push, Dict.upd, Dict.set, Dict.getD, Dict.get?, if_true, Option.getD_some, List.flatMap_cons]
        rw [List.append_assoc, List.append_assoc]
        exact List.Perm.append_left _ List.perm_append_comm
      · have : Dict.push ((k', w) :: d) k v = (k', w) :: Dict.push d k v := by
          simp [Dict.push, Dict.upd, Dict.set, Dict.getD, Dict.get?, h]
        rw [this, List.flatMap_cons, List.flatMap_cons, List.append_assoc]
        exact List.Perm.append_left _ ih
  have : ∀ (l : List ε) (d : Dict κ (List ν)),
      ((l.foldl (fun d e => Dict.push d (key e) (val e)) d).flatMap fun e => e.2).Perm
        ((d.flatMap fun e => e.2) ++ l.map val) := by
    intro l
    induction l with
    | nil => intro d; simp
    | cons a l ih =>
      intro d
      rw [List.foldl_cons]
      refine (ih _).trans ?_
      rw [List.map_cons, List.append_cons]
      exact List.Perm.append_right (l.map val) (push d (key a) (val a))
  exact this l []

end Verif.Lvs
