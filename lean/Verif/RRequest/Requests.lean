import Verif.RRequest.Lemmas
import Mathlib.Data.List.Nodup

/-!
# The R extraction request is split by net (C29), and results carry their net (C63)
-/

namespace Verif.RRequest

open TechInfo (Tech GDSPair Kind ComputedLayer computedByPair canonicalByPair IsLast)
open Shapes (Polygon Pt RegionPb klayoutRegion klayoutPolygon)
open Lvs
open Exc

/-! ### Specification -/

/-- The shapes of net `n` on the LVS layer `s` are requested: the layer is not a pin or label layer and, if empty regions
are skipped, some layer with its GDS pair has a shape of the net. -/
def Requested (t : Tech) (bb : Bool) (db : List DbLayer) (skipEmpty : Bool) (n : String) (s : ExtractedLayer) : Prop :=
  Source t bb db s ∧
  (∃ c, KnownPair t s.pair c ∧ (c.kind = .regular ∨ c.kind = .deviceCapacitor ∨ c.kind = .deviceResistor)) ∧
  (skipEmpty = true → ∃ s', Source t bb db s' ∧ s'.pair = s.pair ∧ ∃ p ∈ s'.shapes, p.net = some n)

/-- The region requested for net `n` and LVS layer `s`: the shapes of the net on all layers with its GDS pair. -/
def RegionFor (t : Tech) (bb : Bool) (db : List DbLayer) (v : Env) (n : String) (s : ExtractedLayer) (r : LayerRegion) :
    Prop :=
  ∃ c S, KnownPair t s.pair c ∧ ShapesOf t bb db s.pair S ∧ r.layer = ⟨v.layerOf s.pair, c.original, s.name⟩ ∧
    r.region.polygons = (S.filter fun p => p.net = some n).map fun p => Message ⟨p.hull, p.holes, none⟩

/-! ### Proofs -/

theorem hasShapes_iff (k : Kind) :
    hasShapes k = true ↔ k = .regular ∨ k = .deviceCapacitor ∨ k = .deviceResistor := by cases k <;> simp [hasShapes]

theorem message_of (l : List Polygon) : (Shapes.regionToPb l {}).polygons = l.map Message := by
  unfold Shapes.regionToPb
  simp only
  rw [Shapes.foldl_snoc, List.nil_append]
  refine List.map_congr_left fun p _ => ?_
  rw [Shapes.polygonToPb_eq]; rfl

theorem mem_shapesOf (t : Tech) (bb : Bool) (db : List DbLayer) (pair : GDSPair) (S : List Polygon)
    (h : ShapesOf t bb db pair S) (p : Polygon) :
    p ∈ S ↔ ∃ s, Source t bb db s ∧ s.pair = pair ∧ p ∈ s.shapes := by
  obtain ⟨ss, h1, _, rfl⟩ := h
  rw [List.mem_flatMap]
  constructor
  · rintro ⟨s, hs, hp⟩; exact ⟨s, ((h1 s).1 hs).1, ((h1 s).1 hs).2, hp⟩
  · rintro ⟨s, a, b, hp⟩; exact ⟨s, (h1 s).2 ⟨a, b⟩, hp⟩

theorem sorted_ext (l m : List ExtractedLayer) (hl : (l.map (·.idx)).Pairwise (· < ·))
    (hm : (m.map (·.idx)).Pairwise (· < ·)) (h : ∀ s, s ∈ l ↔ s ∈ m) : l = m := by
  induction l generalizing m with
  | nil =>
    cases m with
    | nil => rfl
    | cons b m => exact absurd ((h b).2 List.mem_cons_self) (by simp)
  | cons a l ih =>
    cases m with
    | nil => exact absurd ((h a).1 List.mem_cons_self) (by simp)
    | cons b m =>
      rw [List.map_cons, List.pairwise_cons] at hl hm
      have ha : ∀ s ∈ l, a.idx < s.idx := fun s hs => hl.1 _ (List.mem_map_of_mem hs)
      have hb : ∀ s ∈ m, b.idx < s.idx := fun s hs => hm.1 _ (List.mem_map_of_mem hs)
      have e : a = b := by
        rcases List.mem_cons.1 ((h a).1 List.mem_cons_self) with e | h1
        · exact e
        · rcases List.mem_cons.1 ((h b).2 List.mem_cons_self) with e | h2
          · exact e.symm
          · have := ha _ h2; have := hb _ h1; omega
      subst e
      rw [ih m hl.2 hm.2]
      intro s
      constructor
      · intro hs
        rcases List.mem_cons.1 ((h s).1 (List.mem_cons_of_mem _ hs)) with e | h1
        · subst e; exact absurd (ha _ hs) (by omega)
        · exact h1
      · intro hs
        rcases List.mem_cons.1 ((h s).2 (List.mem_cons_of_mem _ hs)) with e | h1
        · subst e; exact absurd (hb _ hs) (by omega)
        · exact h1

theorem shapesOf_unique (t : Tech) (bb : Bool) (db : List DbLayer) (pair : GDSPair) (S S' : List Polygon)
    (h : ShapesOf t bb db pair S) (h' : ShapesOf t bb db pair S') : S = S' := by
  obtain ⟨ss, h1, h2, rfl⟩ := h
  obtain ⟨ss', h1', h2', rfl⟩ := h'
  rw [sorted_ext ss ss' h2 h2' fun s => (h1 s).trans (h1' s).symm]

theorem regionOf_iff (t : Tech) (bb : Bool) (db : List DbLayer) (hd : (db.map (·.index)).Nodup) (v : Env) (ef : Bool)
    (n : String) (s : ExtractedLayer) (hs : Source t bb db s) :
    ((regionOf (prepare t bb db) v ef n s.pair s).isSome ↔ Requested t bb db ef n s) ∧
    ∀ r, regionOf (prepare t bb db) v ef n s.pair s = some r → RegionFor t bb db v n s r := by
  unfold regionOf
  have ht : (prepare t bb db).tech = t := rfl
  rw [ht]
  cases hc : (computedByPair t).get? s.pair with
  | none =>
    refine ⟨⟨fun h => by simp at h, ?_⟩, fun r h => by simp at h⟩
    rintro ⟨_, ⟨c, hk, _⟩, _⟩
    rw [(pair_known t s.pair c).2 hk] at hc; cases hc
  | some li =>
    have hk := (pair_known t s.pair li).1 hc
    simp only [Option.bind_some]
    by_cases hsh : hasShapes li.kind = true
    · rw [if_pos hsh]
      rcases shapes_of_net_exact t bb db hd s.pair n with ⟨h, _⟩ | ⟨_, S, hS, h⟩
      · exact absurd rfl (h s hs)
      · rw [h]
        simp only
        have hcan : (canonicalByPair t).get? s.pair = some li.original := (canonical_known _ _ _).2 ⟨li, hk, rfl⟩
        rw [hcan, Option.map_some]
        have hreq : Requested t bb db ef n s ↔ (ef = true → ∃ p ∈ S, p.net = some n) := by
          constructor
          · rintro ⟨_, _, h⟩ he
            obtain ⟨s', a, b, p, hp, hn⟩ := h he
            exact ⟨p, (mem_shapesOf t bb db _ S hS p).2 ⟨s', a, b, hp⟩, hn⟩
          · intro h
            refine ⟨hs, ⟨li, hk, (hasShapes_iff _).1 hsh⟩, fun he => ?_⟩
            obtain ⟨p, hp, hn⟩ := h he
            obtain ⟨s', a, b, hp'⟩ := (mem_shapesOf t bb db _ S hS p).1 hp
            exact ⟨s', a, b, p, hp', hn⟩
        rw [hreq]
        have hemp : ((S.filter fun p => p.net = some n).map fun p => (⟨p.hull, p.holes, none⟩ : Polygon)).isEmpty = true
            ↔ ¬ ∃ p ∈ S, p.net = some n := by
          rw [List.isEmpty_iff, List.map_eq_nil_iff, List.filter_eq_nil_iff]
          simp
        generalize hb : (ef && ((S.filter fun p => p.net = some n).map
          fun p => (⟨p.hull, p.holes, none⟩ : Polygon)).isEmpty) = b
        cases b with
        | true =>
          rw [Bool.and_eq_true, hemp] at hb
          refine ⟨⟨fun h => by simp at h, fun h => absurd (h hb.1) hb.2⟩, fun r h => by simp at h⟩
        | false =>
          rw [Bool.and_eq_false_iff] at hb
          refine ⟨⟨fun _ he => ?_, fun _ => by simp⟩, fun r h => ?_⟩
          · rcases hb with hb | hb
            · rw [he] at hb; cases hb
            · by_contra hx
              rw [hemp.2 hx] at hb; cases hb
          · simp only [Bool.false_eq_true, if_false, Option.some.injEq] at h
            subst h
            refine ⟨li, S, hk, hS, rfl, ?_⟩
            rw [message_of, List.map_map]; rfl
    · rw [if_neg hsh]
      refine ⟨⟨fun h => by simp at h, ?_⟩, fun r h => by simp at h⟩
      rintro ⟨_, ⟨c, hc', hk'⟩, _⟩
      rw [isLast_unique hc' hk] at hk'
      exact absurd ((hasShapes_iff _).2 hk') hsh

/-- All sources of the groups, in the order of the code. -/
def allSources (x : Context) : List ExtractedLayer := x.layers.extracted.flatMap fun e => e.2.sources

theorem allSources_spec (t : Tech) (bb : Bool) (db : List DbLayer) (hd : (db.map (·.index)).Nodup) :
    (∀ s, s ∈ allSources (prepare t bb db) ↔ Source t bb db s) ∧ (allSources (prepare t bb db)).Nodup := by
  obtain ⟨h1, h2, h3, _⟩ := layers_exact t bb db hd
  constructor
  · intro s
    unfold allSources
    rw [List.mem_flatMap]
    constructor
    · rintro ⟨⟨pair, m⟩, he, hs⟩; exact (((h2 pair m he).2.2.1 s).1 hs).1
    · intro hs
      have := h3 s hs
      rw [Dict.mem_keys] at this
      obtain ⟨m, hm⟩ := this
      exact ⟨(s.pair, m), hm, ((h2 _ m hm).2.2.1 s).2 ⟨hs, rfl⟩⟩
  · unfold allSources
    rw [List.nodup_flatMap]
    refine ⟨?_, ?_⟩
    · rintro ⟨pair, m⟩ he
      have := (h2 pair m he).2.2.2
      rw [List.pairwise_map] at this
      exact this.imp fun h e => by rw [e] at h; omega
    · unfold Dict.keys at h1
      rw [List.Nodup, List.pairwise_map] at h1
      refine h1.imp_of_mem ?_
      rintro ⟨p, m⟩ ⟨p', m'⟩ he he' hne s hs hs'
      exact hne ((((h2 p m he).2.2.1 s).1 hs).2.symm.trans (((h2 p' m' he').2.2.1 s).1 hs').2)

theorem flatMap_sources {β : Type} (t : Tech) (bb : Bool) (db : List DbLayer) (hd : (db.map (·.index)).Nodup)
    (f : GDSPair → ExtractedLayer → List β) :
    ((prepare t bb db).layers.extracted.flatMap fun e => e.2.sources.flatMap fun s => f e.1 s) =
      (allSources (prepare t bb db)).flatMap fun s => f s.pair s := by
  unfold allSources
  rw [List.flatMap_assoc]
  refine List.flatMap_congr fun e he => List.flatMap_congr fun s hs => ?_
  obtain ⟨pair, m⟩ := e
  rw [((((layers_exact t bb db hd).2.1 pair m he).2.2.1 s).1 hs).2]

theorem forall₂_filterMap {α β : Type} (f : α → Option β) (l : List α) :
    List.Forall₂ (fun a b => f a = some b) (l.filter fun a => (f a).isSome) (l.flatMap fun a => (f a).toList) := by
  induction l with
  | nil => exact .nil
  | cons a l ih =>
    rw [List.flatMap_cons]
    cases h : f a with
    | none => rw [List.filter_cons_of_neg (by simp [h])]; simpa using ih
    | some b => rw [List.filter_cons_of_pos (by simp [h])]; exact .cons h ih

theorem regionList_spec (t : Tech) (bb : Bool) (db : List DbLayer) (hd : (db.map (·.index)).Nodup) (v : Env) (ef : Bool)
    (n : String) : ∃ srcs : List ExtractedLayer, (∀ s, s ∈ srcs ↔ Requested t bb db ef n s) ∧ srcs.Nodup ∧
      List.Forall₂ (RegionFor t bb db v n) srcs (regionList (prepare t bb db) v ef n) := by
  obtain ⟨h1, h2⟩ := allSources_spec t bb db hd
  refine ⟨(allSources (prepare t bb db)).filter fun s => (regionOf (prepare t bb db) v ef n s.pair s).isSome, ?_,
    h2.filter _, ?_⟩
  · intro s
    rw [List.mem_filter, h1]
    constructor
    · rintro ⟨a, b⟩; exact (regionOf_iff t bb db hd v ef n s a).1.1 b
    · intro h; exact ⟨h.1, (regionOf_iff t bb db hd v ef n s h.1).1.2 h⟩
  · unfold regionList
    rw [flatMap_sources t bb db hd fun p s => (regionOf (prepare t bb db) v ef n p s).toList]
    have key := forall₂_filterMap (fun s : ExtractedLayer => regionOf (prepare t bb db) v ef n s.pair s)
      (allSources (prepare t bb db))
    generalize hl : (allSources (prepare t bb db)).filter (fun s => (regionOf (prepare t bb db) v ef n s.pair s).isSome)
      = l at key ⊢
    generalize (allSources (prepare t bb db)).flatMap
      (fun s => (regionOf (prepare t bb db) v ef n s.pair s).toList) = l' at key ⊢
    have hmem : ∀ s ∈ l, Source t bb db s := by
      intro s hs; rw [← hl, List.mem_filter] at hs; exact (h1 s).1 hs.1
    clear hl
    induction key with
    | nil => exact .nil
    | cons h _ ih =>
      exact .cons ((regionOf_iff t bb db hd v ef n _ (hmem _ List.mem_cons_self)).2 _ h)
        (ih fun s hs => hmem s (List.mem_cons_of_mem _ hs))

theorem pinsIn_eq (n : String) (ps : List Pin) (ts : List Terminal) (rs : List Op)
    (hr : ∀ o ∈ rs, ∃ m r, o = Op.region m r) :
    pinsIn n (ps.map Op.pin ++ ts.map Op.terminal ++ rs) = ps.filter (fun p => p.net = n) ∧
    termsIn n (ps.map Op.pin ++ ts.map Op.terminal ++ rs) = ts.filter (fun t => t.net = n) ∧
    regionsIn n (ps.map Op.pin ++ ts.map Op.terminal ++ rs) = regionsIn n rs := by
  unfold pinsIn termsIn regionsIn
  simp only [List.filterMap_append, List.filterMap_map]
  have hp : ∀ {γ : Type} (f : Op → Option γ), (∀ m r, f (.region m r) = none) → rs.filterMap f = [] := by
    intro γ f hf
    rw [List.filterMap_eq_nil_iff]
    intro o ho
    obtain ⟨m, r, rfl⟩ := hr o ho
    exact hf m r
  have hf : ∀ {γ : Type} (q : γ → Prop) [DecidablePred q] (l : List γ),
      l.filterMap (fun p => if q p then some p else none) = l.filter (fun p => decide (q p)) := by
    intro γ q _ l
    induction l with
    | nil => rfl
    | cons a l ih =>
      by_cases h : q a
      · rw [List.filterMap_cons_some (b := a) (by simp [h]), ih, List.filter_cons_of_pos (by simpa using h)]
      · rw [List.filterMap_cons_none (by simp [h]), ih, List.filter_cons_of_neg (by simpa using h)]
  have hnone : ∀ {γ δ : Type} (l : List γ), l.filterMap (fun _ => (none : Option δ)) = [] := by
    intro γ δ l; simp
  refine ⟨?_, ?_, ?_⟩
  · rw [hp _ (fun _ _ => rfl)]
    have e1 : ps.filterMap (Op.pinOf n ∘ Op.pin) = _ := hf (fun p : Pin => p.net = n) ps
    have e2 : ts.filterMap (Op.pinOf n ∘ Op.terminal) = [] := hnone ts
    rw [e1, e2, List.append_nil, List.append_nil]
  · rw [hp _ (fun _ _ => rfl)]
    have e1 : ts.filterMap (Op.termOf n ∘ Op.terminal) = _ := hf (fun p : Terminal => p.net = n) ts
    have e2 : ps.filterMap (Op.termOf n ∘ Op.pin) = [] := hnone ps
    rw [e1, e2, List.append_nil, List.nil_append]
  · have e1 : ts.filterMap (Op.regOf n ∘ Op.terminal) = [] := hnone ts
    have e2 : ps.filterMap (Op.regOf n ∘ Op.pin) = [] := hnone ps
    rw [e1, e2, List.append_nil, List.nil_append]

theorem mem_regionOps (x : Context) (v : Env) (ef : Bool) (nets : List String) (o : Op) :
    o ∈ regionOps x v ef nets ↔ ∃ n ∈ nets, ∃ r ∈ regionList x v ef n, o = Op.region n r := by
  rw [regionOps_eq, List.mem_flatMap]
  refine exists_congr fun n => and_congr_right fun _ => ?_
  rw [List.mem_map]
  exact exists_congr fun r => and_congr_right fun _ => eq_comm

/-- **C29.** A request for R extraction has one part per net name.  There is a part for `n` exactly if a pin or a terminal
has the net `n` or `n` is a net of the circuit with shapes on a requested layer.  The pins and terminals in it are exactly
those of all pins and of all terminals of all devices with net `n`, in order; so each of them is in exactly one part.  The
regions are those of the requested LVS layers, one for each, and hold the shapes of the net. -/
theorem request_exact_partial (t : Tech) (bb : Bool) (db : List DbLayer) (hd : (db.map (·.index)).Nodup) (v : Env)
    (cfg : Config) (skipEmpty : Bool) (ds : List DbDevice) (nets : List String) (hn : nets.Nodup) (q : Request)
    (h : prepareRequest (prepare t bb db) v cfg skipEmpty ds (some nets) = .ok q) :
    (∃ tech dd pb, prepareTech (prepare t bb db) v cfg = .ok tech ∧ q.tech = tech ∧
      devicesByName (prepare t bb db) ds = .ok dd ∧ q.devices = dd.map Prod.snd ∧
      pinsByLayer (prepare t bb db) v = .ok pb ∧ q.pins = (pb.map Prod.snd).flatten) ∧
    (q.nets.map Prod.fst).Nodup ∧
    (∀ n, n ∈ q.nets.map Prod.fst ↔ (∃ p ∈ q.pins, p.net = n) ∨ (∃ d ∈ q.devices, ∃ m ∈ d.terminals, m.net = n) ∨
      (n ∈ nets ∧ ∃ s, Requested t bb db skipEmpty n s)) ∧
    ∀ n r, (n, r) ∈ q.nets →
      r.pins = q.pins.filter (fun p => p.net = n) ∧
      r.terminals = (q.devices.flatMap (·.terminals)).filter (fun m => m.net = n) ∧
      (n ∉ nets → r.regions = []) ∧
      (n ∈ nets → ∃ srcs : List ExtractedLayer, (∀ s, s ∈ srcs ↔ Requested t bb db skipEmpty n s) ∧ srcs.Nodup ∧
        List.Forall₂ (RegionFor t bb db v n) srcs r.regions) := by
  obtain ⟨tech, dd, pb, h1, h2, h3, rfl⟩ := prepareRequest_ok _ v cfg skipEmpty ds nets q h
  refine ⟨⟨tech, dd, pb, h1, rfl, h2, rfl, h3, rfl⟩, ?_⟩
  simp only
  generalize pb.values.flatten = ps
  have hdv : dd.values.flatMap (fun d => d.terminals) = dd.values.flatMap (·.terminals) := rfl
  generalize hts : dd.values.flatMap (fun d => d.terminals) = ts
  obtain ⟨k1, k2, k3⟩ := runOps_spec (ps.map Op.pin ++ ts.map Op.terminal ++
    regionOps (prepare t bb db) v skipEmpty nets)
  refine ⟨k2, ?_, ?_⟩
  · intro n
    change n ∈ Dict.keys _ ↔ _
    rw [k1, mem_firsts]
    simp only [List.map_append, List.map_map, List.mem_append, or_assoc]
    refine or_congr ?_ (or_congr ?_ ?_)
    · rw [List.mem_map]; rfl
    · rw [List.mem_map, ← hts]
      constructor
      · rintro ⟨m, hm, e⟩
        obtain ⟨d, hd', hm'⟩ := List.mem_flatMap.1 hm
        exact ⟨d, hd', m, hm', e⟩
      · rintro ⟨d, hd', m, hm, e⟩
        exact ⟨m, List.mem_flatMap.2 ⟨d, hd', hm⟩, e⟩
    · rw [List.mem_map]
      obtain ⟨srcs, g1, g2, g3⟩ := regionList_spec t bb db hd v skipEmpty n
      constructor
      · rintro ⟨o, ho, e⟩
        obtain ⟨m, hm, r, hr, rfl⟩ := (mem_regionOps _ _ _ _ _).1 ho
        have e' : m = n := e
        subst e'
        refine ⟨hm, ?_⟩
        generalize regionList (prepare t bb db) v skipEmpty m = l0 at g3 hr
        cases g3 with
        | nil => cases hr
        | @cons a b l l' _ _ => exact ⟨a, (g1 a).1 List.mem_cons_self⟩
      · rintro ⟨hm, s, hs⟩
        have hs' := (g1 s).2 hs
        have hne : regionList (prepare t bb db) v skipEmpty n ≠ [] := by
          intro e
          rw [e] at g3
          cases g3
          cases hs'
        obtain ⟨r, hr⟩ := List.exists_mem_of_ne_nil _ hne
        exact ⟨Op.region n r, (mem_regionOps _ _ _ _ _).2 ⟨n, hm, r, hr, rfl⟩, rfl⟩
  · intro n r hr
    have hg := Dict.get?_of_mem k2 hr
    have hD : Dict.getD (runOps (ps.map Op.pin ++ ts.map Op.terminal ++
        regionOps (prepare t bb db) v skipEmpty nets) []) n {} = r := by
      unfold Dict.getD; rw [hg]; rfl
    obtain ⟨j1, j2, j3⟩ := k3 n
    rw [hD] at j1 j2 j3
    obtain ⟨p1, p2, p3⟩ := pinsIn_eq n ps ts (regionOps (prepare t bb db) v skipEmpty nets) (by
      intro o ho
      obtain ⟨m, _, r, _, e⟩ := (mem_regionOps _ _ _ _ _).1 ho
      exact ⟨m, r, e⟩)
    rw [j1, j2, j3, p1, p2, p3, regionsIn_ops _ _ _ _ _ hn]
    refine ⟨rfl, ?_, ?_, ?_⟩
    · rfl
    · intro hx; rw [if_neg hx]
    · intro hx; rw [if_pos hx]; exact regionList_spec t bb db hd v skipEmpty n

end Verif.RRequest
