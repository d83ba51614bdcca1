import Verif.Lvs.Layers
import Verif.Common.Exc
import Verif.Shapes.Props

/-!
# Pins and devices of the extraction context (C60, C61)
-/

namespace Verif.Lvs

open TechInfo (Tech GDSPair Kind ComputedLayer LayerInfo IsLast computedByName computedByPair canonicalByPair
  layerByPair gdsPairForLayer single_lookups)
open Shapes (Polygon Pt)
open Exc

/-! ### Specification -/

/-- The layer with this LVS pair is a part of the layer of the technology that is drawn with pair `gp`: the canonical name
of the pair is the name of a layer with the drawing pair `gp`. -/
def DrawnAs (t : Tech) (pair gp : GDSPair) : Prop :=
  ∃ c l, KnownPair t pair c ∧ IsLast (fun l => l.name = c.original) t.layers l ∧ l.drw = gp

/-- `P` are the pin shapes of a pin pair: those of the only layer with that pair, or none. -/
def PinShapes (t : Tech) (bb : Bool) (db : List DbLayer) (pair : GDSPair) (P : List Polygon) : Prop :=
  ((∀ s, Source t bb db s → s.pair ≠ pair) ∧ P = []) ∨
  ∃ s, Source t bb db s ∧ s.pair = pair ∧ (∀ s', Source t bb db s' → s'.pair = pair → s' = s) ∧ P = s.shapes

/-- The pin of a label on the LVS layer `s`: text and position of the label, the layer, and the net of the first pin shape
that contains the label. -/
def PinFor (t : Tech) (v : Env) (P : List Polygon) (s : ExtractedLayer) (label : String × Pt) (p : Pin) : Prop :=
  p.label = label.1 ∧ p.point = label.2 ∧
  (∃ c, KnownPair t s.pair c ∧ p.layer = ⟨v.layerOf s.pair, c.original, c.info.name⟩) ∧
  ∃ P₁ q P₂, P = P₁ ++ q :: P₂ ∧ v.inside q label.2 = true ∧ (∀ r ∈ P₁, v.inside r label.2 = false) ∧
    q.net = some p.net

/-! ### Pins -/

theorem pair_known (t : Tech) (p : GDSPair) (c : ComputedLayer) : (computedByPair t).get? p = some c ↔ KnownPair t p c :=
  (single_lookups t).2.1 p c

theorem canonical_known (t : Tech) (p : GDSPair) (s : String) :
    (canonicalByPair t).get? p = some s ↔ ∃ c, KnownPair t p c ∧ c.original = s := (single_lookups t).2.2.1 p s

theorem layer_pair (t : Tech) (n : String) (g : GDSPair) :
    (gdsPairForLayer t).get? n = some g ↔ ∃ l, IsLast (fun l => l.name = n) t.layers l ∧ l.drw = g := by
  unfold gdsPairForLayer; exact TechInfo.ofList_map_some _ _ _ _ _

theorem isLast_unique {α : Type} {p : α → Prop} {l : List α} {x y : α} (hx : IsLast p l x) (hy : IsLast p l y) :
    x = y := by
  classical
  have e : ∀ z, IsLast p l z ↔ l.reverse.find? (fun y => decide (p y)) = some z := by
    intro z
    rw [TechInfo.find_last]
    exact IsLast.congr (by simp)
  have h1 := (e x).1 hx
  have h2 := (e y).1 hy
  rw [h1] at h2; exact Option.some.inj h2

theorem pinsOfLayer_ok (t : Tech) (bb : Bool) (db : List DbLayer) (hd : (db.map (·.index)).Nodup) (gp : GDSPair)
    (lay : LayerInfo) (hl : IsLast (fun l => l.drw = gp) t.layers lay) (P : List Polygon)
    (h : pinsOfLayer (prepare t bb db) gp = .ok P) : PinShapes t bb db lay.pin P := by
  unfold pinsOfLayer at h
  have hl' : (layerByPair (prepare t bb db).tech).get? gp = some lay := ((single_lookups t).2.2.2.1 gp lay).2 hl
  rw [hl'] at h
  simp only at h
  cases hg : (prepare t bb db).layers.extracted.get? lay.pin with
  | none =>
    rw [hg] at h
    cases h
    refine .inl ⟨?_, rfl⟩
    intro s hs e
    have := (layers_exact t bb db hd).2.2.1 s hs
    rw [e, Dict.mem_keys_iff, hg] at this
    cases this
  | some m =>
    rw [hg] at h
    obtain ⟨h1, h2, _⟩ := get?_extracted t bb db hd lay.pin m hg
    rcases hm : m.sources with _ | ⟨s1, _ | ⟨s2, rest⟩⟩
    · exact absurd hm h1
    · simp only [hm] at h
      cases h
      have hs1 := (h2 s1).1 (by rw [hm]; exact List.mem_cons_self)
      refine .inr ⟨s1, hs1.1, hs1.2, ?_, rfl⟩
      intro s' hs' e
      have := (h2 s').2 ⟨hs', e⟩
      rw [hm] at this
      simpa using this
    · simp only [hm] at h; cases h

theorem pinNet_ok (v : Env) (P : List Polygon) (pos : Pt) (hany : P.any (fun p => v.inside p pos) = true) (n : String)
    (h : pinNet v P pos = .ok n) :
    ∃ P₁ q P₂, P = P₁ ++ q :: P₂ ∧ v.inside q pos = true ∧ (∀ r ∈ P₁, v.inside r pos = false) ∧ q.net = some n := by
  unfold pinNet at h
  cases hf : P.find? (fun p => v.inside p pos) with
  | none =>
    rw [List.find?_eq_none] at hf
    obtain ⟨p, hp, hi⟩ := List.any_eq_true.1 hany
    exact absurd hi (hf p hp)
  | some q =>
    rw [hf] at h
    simp only at h
    obtain ⟨hq, P1, P2, e, hn⟩ := List.find?_eq_some_iff_append.1 hf
    cases hnet : q.net with
    | none => rw [hnet] at h; cases h
    | some m =>
      rw [hnet] at h
      cases h
      exact ⟨P1, q, P2, e, hq, fun r hr => by simpa using hn r hr, hnet⟩

theorem pinsOfSource_ok (t : Tech) (bb : Bool) (db : List DbLayer) (hd : (db.map (·.index)).Nodup) (v : Env)
    (gp : GDSPair) (lay : LayerInfo) (hl : IsLast (fun l => l.drw = gp) t.layers lay) (s : ExtractedLayer)
    (r : List Pin) (h : pinsOfSource (prepare t bb db) v gp s = .ok r) :
    ∃ P, PinShapes t bb db lay.pin P ∧
      List.Forall₂ (PinFor t v P s) ((v.texts lay.label).filter fun l => P.any fun p => v.inside p l.2) r := by
  unfold pinsOfSource at h
  rw [bind_ok] at h
  obtain ⟨P, hP, h⟩ := h
  rw [bind_ok] at h
  obtain ⟨labels, hlab, h⟩ := h
  have hl' : (layerByPair (prepare t bb db).tech).get? gp = some lay := ((single_lookups t).2.2.2.1 gp lay).2 hl
  unfold labelsOfLayer at hlab
  rw [hl'] at hlab
  cases hlab
  refine ⟨P, pinsOfLayer_ok t bb db hd gp lay hl P hP, ?_⟩
  rw [mapM_ok] at h
  have key : ∀ (L : List (String × Pt)) (r : List Pin), (∀ l ∈ L, P.any (fun p => v.inside p l.2) = true) →
      List.Forall₂ (fun l b => (do
        let net ← pinNet v P l.2
        let canonical ← ((canonicalByPair (prepare t bb db).tech).get? s.pair).elim (.error "KeyError") .ok
        let c ← ((computedByPair (prepare t bb db).tech).get? s.pair).elim (.error "KeyError") .ok
        return ({ label := l.1, net := net, layer := ⟨v.layerOf s.pair, canonical, c.info.name⟩, point := l.2 } : Pin) :
          Except String Pin) = .ok b) L r →
      List.Forall₂ (PinFor t v P s) L r := by
    intro L r hL h
    induction h with
    | nil => exact .nil
    | @cons l b L r hb _ ih =>
      refine .cons ?_ (ih fun l' hl' => hL l' (List.mem_cons_of_mem _ hl'))
      rw [bind_ok] at hb
      obtain ⟨net, hnet, hb⟩ := hb
      rw [bind_ok] at hb
      obtain ⟨can, hcan, hb⟩ := hb
      rw [bind_ok] at hb
      obtain ⟨c, hc, hb⟩ := hb
      rw [elim_ok] at hcan hc
      rw [pure_ok] at hb
      subst hb
      obtain ⟨c', hc', hor⟩ := (canonical_known t _ _).1 hcan
      have hc2 := (pair_known t _ _).1 hc
      have := isLast_unique hc' hc2
      subst this
      refine ⟨rfl, rfl, ⟨c', hc', by rw [hor]⟩, ?_⟩
      exact pinNet_ok v P l.2 (hL l List.mem_cons_self) net hnet
  exact key _ _ (fun l hl => (List.mem_filter.1 hl).2) h

theorem filter_flatten {β γ : Type} (Q : β → Bool) (g : β → γ) (lb : List (List β)) :
    (lb.flatten.filter Q).map g = (lb.map fun b => (b.filter Q).map g).flatten := by
  induction lb with
  | nil => rfl
  | cons b lb ih => rw [List.flatten_cons, List.filter_append, List.map_append, ih]; rfl

/-- **C60.** If the pins are read without exception: for a layer of the technology (drawing pair `gp`), the pins consist
of one block for every LVS layer that is a part of it, and each block has, in order, the pin of every label that lies on
a pin shape of the layer, and nothing else.  If no LVS layer is a part of it there are no pins. -/
theorem pins_exact (t : Tech) (bb : Bool) (db : List DbLayer) (hd : (db.map (·.index)).Nodup) (v : Env)
    (d : Dict GDSPair (List Pin)) (h : pinsByLayer (prepare t bb db) v = .ok d) (gp : GDSPair) (lay : LayerInfo)
    (hl : IsLast (fun l => l.drw = gp) t.layers lay) :
    ∃ srcs blocks, (∀ s, s ∈ srcs ↔ Source t bb db s ∧ DrawnAs t s.pair gp) ∧ srcs.Nodup ∧
      d.getD gp [] = blocks.flatten ∧
      List.Forall₂ (fun s block => ∃ P, PinShapes t bb db lay.pin P ∧
        List.Forall₂ (PinFor t v P s) ((v.texts lay.label).filter fun l => P.any fun p => v.inside p l.2) block)
        srcs blocks := by
  unfold pinsByLayer at h
  rw [bind_ok] at h
  obtain ⟨all, hall, h⟩ := h
  rw [pure_ok] at h
  subst h
  rw [mapM_ok] at hall
  have hd1 : Dict.getD (groupBy Prod.fst Prod.snd all.flatten) gp [] =
      (all.flatten.filter fun e => decide (e.1 = gp)).map Prod.snd := by
    rw [groupBy_eq, Dict.getD]
    by_cases hm : gp ∈ firsts (all.flatten.map Prod.fst)
    · have hn : (Dict.keys ((firsts (all.flatten.map Prod.fst)).map fun k =>
          (k, (all.flatten.filter fun e => decide (e.1 = k)).map Prod.snd))).Nodup := by
        unfold Dict.keys
        rw [List.map_map]
        have : (Prod.fst ∘ fun k => (k, (all.flatten.filter fun e => decide (e.1 = k)).map Prod.snd)) = id := rfl
        rw [this, List.map_id]
        exact nodup_firsts _
      rw [Dict.get?_of_mem hn (List.mem_map.2 ⟨gp, hm, rfl⟩)]; rfl
    · have hn : Dict.get? ((firsts (all.flatten.map Prod.fst)).map fun k =>
          (k, (all.flatten.filter fun e => decide (e.1 = k)).map Prod.snd)) gp = none := by
        rw [Dict.get?_eq_none]
        unfold Dict.keys
        rw [List.map_map]
        have : (Prod.fst ∘ fun k => (k, (all.flatten.filter fun e => decide (e.1 = k)).map Prod.snd)) = id := rfl
        rw [this, List.map_id]
        exact hm
      rw [hn]
      rw [mem_firsts] at hm
      have : (all.flatten.filter fun e => decide (e.1 = gp)) = [] := by
        rw [List.filter_eq_nil_iff]
        intro e he
        have := fun h : e.1 = gp => hm (List.mem_map.2 ⟨e, he, h⟩)
        simpa using this
      rw [this]; rfl
  rw [hd1, filter_flatten]
  clear hd1
  have hkeys := (layers_exact t bb db hd).1
  have hgroups := (layers_exact t bb db hd).2.1
  have hcomplete := (layers_exact t bb db hd).2.2.1
  -- induction over the groups
  have key : ∀ (ex : Dict GDSPair Merged) (all : List (List (GDSPair × Pin))),
      (∀ e ∈ ex, e ∈ (prepare t bb db).layers.extracted) → ex.keys.Nodup →
      List.Forall₂ (fun a b => pinsOfMerged (prepare t bb db) v a = .ok b) ex all →
      ∃ srcs blocks, (∀ s, s ∈ srcs ↔ (Source t bb db s ∧ s.pair ∈ ex.keys) ∧ DrawnAs t s.pair gp) ∧ srcs.Nodup ∧
        (all.map fun b => (b.filter fun e => decide (e.1 = gp)).map Prod.snd).flatten = blocks.flatten ∧
        List.Forall₂ (fun s block => ∃ P, PinShapes t bb db lay.pin P ∧
          List.Forall₂ (PinFor t v P s) ((v.texts lay.label).filter fun l => P.any fun p => v.inside p l.2) block)
          srcs blocks := by
    intro ex all hex hnd hf
    induction hf with
    | nil => exact ⟨[], [], by simp [Dict.keys], by simp, rfl, .nil⟩
    | @cons e b ex all hb _ ih =>
      obtain ⟨pair, m⟩ := e
      have hnd' : pair ∉ Dict.keys ex ∧ (Dict.keys ex).Nodup := List.nodup_cons.1 hnd
      obtain ⟨srcs, blocks, i1, i2, i3, i4⟩ := ih (fun e he => hex e (List.mem_cons_of_mem _ he)) hnd'.2
      obtain ⟨g1, g2, g3, g4⟩ := hgroups pair m (hex _ List.mem_cons_self)
      unfold pinsOfMerged at hb
      rw [bind_ok] at hb
      obtain ⟨can, hcan, hb⟩ := hb
      rw [elim_ok] at hcan
      obtain ⟨c, hc, hco⟩ := (canonical_known t _ _).1 hcan
      simp only at hb hc
      -- whether the group belongs to the layer
      by_cases hdr : DrawnAs t pair gp
      · obtain ⟨c', l', k1, k2, k3⟩ := hdr
        have := isLast_unique hc k1
        subst this
        have hgl : (gdsPairForLayer (prepare t bb db).tech).get? can = some gp :=
          (layer_pair t can gp).2 ⟨l', by rw [← hco]; exact k2, k3⟩
        have hhas : Dict.has (layerByPair (prepare t bb db).tech) gp = true := by
          have hl' : (layerByPair (prepare t bb db).tech).get? gp = some lay :=
            ((single_lookups t).2.2.2.1 gp lay).2 hl
          rw [Dict.has, hl']; rfl
        rw [hgl] at hb
        simp only [hhas, Bool.not_true, Bool.false_eq_true, if_false] at hb
        rw [bind_ok] at hb
        obtain ⟨pins, hpins, hb⟩ := hb
        rw [pure_ok] at hb
        subst hb
        rw [mapM_ok] at hpins
        refine ⟨m.sources ++ srcs, pins ++ blocks, ?_, ?_, ?_, ?_⟩
        · intro s
          rw [List.mem_append, g3, i1]
          constructor
          · rintro (⟨k, k'⟩ | ⟨⟨k, k'⟩, k''⟩)
            · exact ⟨⟨k, by rw [k']; exact List.mem_cons_self⟩, by rw [k']; exact ⟨c, l', k1, k2, k3⟩⟩
            · exact ⟨⟨k, List.mem_cons_of_mem _ k'⟩, k''⟩
          · rintro ⟨⟨k, k'⟩, k''⟩
            rcases List.mem_cons.1 k' with e | e
            · exact .inl ⟨k, e⟩
            · exact .inr ⟨⟨k, e⟩, k''⟩
        · rw [List.nodup_append]
          refine ⟨?_, i2, ?_⟩
          · rw [List.pairwise_map] at g4
            exact g4.imp fun {a b} h e => by subst e; exact absurd h (Nat.lt_irrefl _)
          · intro a ha b hb' e
            subst e
            have h1 := ((g3 a).1 ha).2
            have h2 := ((i1 a).1 hb').1.2
            rw [h1] at h2
            exact hnd'.1 h2
        · rw [List.map_cons, List.flatten_cons, i3, List.flatten_append]
          congr 1
          rw [List.filter_map, List.map_map]
          have e1 : (fun e : GDSPair × Pin => decide (e.1 = gp)) ∘ (fun p => (gp, p)) = fun _ => true := by
            funext p; simp
          have e2 : (Prod.snd ∘ fun p : Pin => (gp, p)) = id := rfl
          rw [e1, e2, List.filter_true, List.map_id]
        · refine List.rel_append ?_ i4
          refine hpins.imp ?_
          intro s r hr
          exact pinsOfSource_ok t bb db hd v gp lay hl s r hr
      · refine ⟨srcs, blocks, ?_, i2, ?_, i4⟩
        · intro s
          rw [i1]
          constructor
          · rintro ⟨⟨k, k'⟩, k''⟩; exact ⟨⟨k, List.mem_cons_of_mem _ k'⟩, k''⟩
          · rintro ⟨⟨k, k'⟩, k''⟩
            rcases List.mem_cons.1 k' with e | e
            · have e' : s.pair = pair := e
              exact absurd (e' ▸ k'') hdr
            · exact ⟨⟨k, e⟩, k''⟩
        · rw [List.map_cons, List.flatten_cons, i3]
          have : b.filter (fun e => decide (e.1 = gp)) = [] := by
            rw [List.filter_eq_nil_iff]
            intro e he hgp
            simp only [decide_eq_true_eq] at hgp
            cases hgl : (gdsPairForLayer (prepare t bb db).tech).get? can with
            | none =>
              rw [hgl] at hb
              simp only at hb
              rw [pure_ok] at hb
              subst hb; cases he
            | some gp' =>
              rw [hgl] at hb
              simp only at hb
              by_cases hh : (!Dict.has (layerByPair (prepare t bb db).tech) gp') = true
              · rw [if_pos hh, pure_ok] at hb
                subst hb; cases he
              · rw [if_neg hh, bind_ok] at hb
                obtain ⟨pins, _, hb⟩ := hb
                rw [pure_ok] at hb
                subst hb
                obtain ⟨p, _, hp⟩ := List.mem_map.1 he
                have : gp' = gp := by rw [← hgp, ← hp]
                subst this
                obtain ⟨l', k2, k3⟩ := (layer_pair t can gp').1 hgl
                exact hdr ⟨c, l', hc, by rw [hco]; exact k2, k3⟩
          rw [this]; rfl
  obtain ⟨srcs, blocks, i1, i2, i3, i4⟩ := key _ _ (fun e he => he) hkeys hall
  refine ⟨srcs, blocks, ?_, i2, i3, i4⟩
  intro s
  rw [i1]
  constructor
  · rintro ⟨⟨k, _⟩, k'⟩; exact ⟨k, k'⟩
  · rintro ⟨k, k'⟩; exact ⟨⟨k, hcomplete s k⟩, k'⟩

/-- **C60, exactly once (partial).** If exactly one LVS layer is a part of the layer, the pins of the layer are the pins
of the labels on its pin shapes, each once, in order. -/
theorem pins_once_partial (t : Tech) (bb : Bool) (db : List DbLayer) (hd : (db.map (·.index)).Nodup) (v : Env)
    (d : Dict GDSPair (List Pin)) (h : pinsByLayer (prepare t bb db) v = .ok d) (gp : GDSPair) (lay : LayerInfo)
    (hl : IsLast (fun l => l.drw = gp) t.layers lay) (s : ExtractedLayer) (hs : Source t bb db s)
    (hsd : DrawnAs t s.pair gp) (hone : ∀ s', Source t bb db s' → DrawnAs t s'.pair gp → s' = s) :
    ∃ P, PinShapes t bb db lay.pin P ∧
      List.Forall₂ (PinFor t v P s) ((v.texts lay.label).filter fun l => P.any fun p => v.inside p l.2)
        (d.getD gp []) := by
  obtain ⟨srcs, blocks, h1, h2, h3, h4⟩ := pins_exact t bb db hd v d h gp lay hl
  have e : srcs = [s] := by
    have hmem : ∀ s', s' ∈ srcs ↔ s' = s := by
      intro s'; rw [h1]
      constructor
      · rintro ⟨a, b⟩; exact hone s' a b
      · rintro rfl; exact ⟨hs, hsd⟩
    rcases srcs with _ | ⟨a, _ | ⟨b, rest⟩⟩
    · exact absurd ((hmem s).2 rfl) (by simp)
    · rw [(hmem a).1 List.mem_cons_self]
    · have ha := (hmem a).1 List.mem_cons_self
      have hb := (hmem b).1 (by simp)
      rw [ha, hb] at h2
      simp at h2
  subst e
  cases h4 with
  | cons hb hrest =>
    cases hrest
    rw [h3]
    simpa using hb

/-! ### Devices -/

/-- The message of a polygon: hull and net, no holes. -/
def Message (p : Polygon) : Shapes.PolygonPb := { hull := p.hull.map fun q => ⟨q.1, q.2, ""⟩, net := p.net.getD "" }

/-- The region of a terminal on the LVS layer with index `e.1`: the layer of the annotated layout made from that LVS
layer, the canonical name of its GDS pair, and the shapes. -/
def TermRegion (x : Context) (e : Nat × List Polygon) (r : LayerRegion) : Prop :=
  ∃ n pair c, x.layerMap.map.get? e.1 = some n ∧ x.layerMap.infos[n]? = some pair ∧ KnownPair x.tech pair c ∧
    r.layer = ⟨n, c.original, ""⟩ ∧ r.region.polygons = e.2.map Message

/-- The message of terminal `td` of device `d`: ids and names, the net of the terminal, and its shapes on every layer. -/
def TermFor (x : Context) (d : DbDevice) (td : Nat × String) (m : Terminal) : Prop :=
  ∃ n nt, d.netFor td.1 = some n ∧ nt ∈ n.terminals ∧ nt.device = d.name ∧ nt.terminal = td.1 ∧
    m.deviceId = d.id ∧ m.terminalId = td.1 ∧ m.name = td.2 ∧ m.net = n.name ∧
    List.Forall₂ (TermRegion x) nt.shapes m.regions

/-- The netlist is consistent for a device: the net of a terminal refers back to the terminal exactly once. -/
def Consistent (d : DbDevice) : Prop :=
  ∀ td ∈ d.terminals, ∀ n, d.netFor td.1 = some n →
    ∃ nt, (n.terminals.filter fun nt => nt.device == d.name && nt.terminal == td.1) = [nt]

theorem terminalRegion_ok (x : Context) (e : Nat × List Polygon) (r : LayerRegion) (h : terminalRegion x e = .ok r) :
    TermRegion x e r := by
  unfold terminalRegion at h
  rw [bind_ok] at h
  obtain ⟨n, hn, h⟩ := h
  rw [bind_ok] at h
  obtain ⟨pair, hp, h⟩ := h
  rw [bind_ok] at h
  obtain ⟨can, hc, h⟩ := h
  rw [elim_ok] at hn hp hc
  rw [pure_ok] at h
  subst h
  obtain ⟨c, hc', rfl⟩ := (canonical_known _ _ _).1 hc
  refine ⟨n, pair, c, hn, hp, hc', rfl, ?_⟩
  show (Shapes.regionToPb e.2 {}).polygons = _
  unfold Shapes.regionToPb
  rw [Shapes.foldl_snoc, List.nil_append]
  exact List.map_congr_left fun p _ => Shapes.polygonToPb_eq p

theorem terminalsOf_ok (x : Context) (d : DbDevice) (hd : Consistent d) (td : Nat × String) (htd : td ∈ d.terminals)
    (r : List Terminal) (h : terminalsOf x d td = .ok r) : ∃ m, r = [m] ∧ TermFor x d td m := by
  unfold terminalsOf at h
  cases hn : d.netFor td.1 with
  | none => rw [hn] at h; cases h
  | some n =>
    rw [hn] at h
    obtain ⟨nt, hnt⟩ := hd td htd n hn
    simp only at h
    rw [hnt, mapM_ok] at h
    cases h with
    | @cons _ m _ _ hm hr =>
      cases hr
      refine ⟨m, rfl, n, nt, hn, ?_⟩
      have hmem : nt ∈ n.terminals.filter fun nt => nt.device == d.name && nt.terminal == td.1 := by
        rw [hnt]; exact List.mem_cons_self
      rw [List.mem_filter, Bool.and_eq_true, beq_iff_eq, beq_iff_eq] at hmem
      rw [bind_ok] at hm
      obtain ⟨regions, hreg, hm⟩ := hm
      rw [pure_ok] at hm
      subst hm
      rw [mapM_ok] at hreg
      exact ⟨hmem.1, hmem.2.1, hmem.2.2, rfl, rfl, rfl, rfl, hreg.imp fun {e r} h => terminalRegion_ok x e r h⟩

/-- The message of a device: its fields, and one message for every terminal, in order. -/
def DeviceFor (x : Context) (d : DbDevice) (m : Device) : Prop :=
  m.id = d.id ∧ m.name = d.name ∧ m.className = d.className ∧ m.abstractName = d.abstractName ∧ m.params = d.params ∧
    List.Forall₂ (TermFor x d) d.terminals m.terminals

theorem deviceOf_ok (x : Context) (d : DbDevice) (hd : Consistent d) (m : Device) (h : deviceOf x d = .ok m) :
    DeviceFor x d m := by
  unfold deviceOf at h
  rw [bind_ok] at h
  obtain ⟨ts, hts, h⟩ := h
  rw [pure_ok] at h
  subst h
  rw [mapM_ok] at hts
  refine ⟨rfl, rfl, rfl, rfl, rfl, ?_⟩
  have key : ∀ (tds : List (Nat × String)) (ts : List (List Terminal)), (∀ td ∈ tds, td ∈ d.terminals) →
      List.Forall₂ (fun a b => terminalsOf x d a = .ok b) tds ts → List.Forall₂ (TermFor x d) tds ts.flatten := by
    intro tds ts hm h
    induction h with
    | nil => exact .nil
    | @cons td r tds ts hr _ ih =>
      obtain ⟨m, rfl, hm'⟩ := terminalsOf_ok x d hd td (hm td List.mem_cons_self) r hr
      exact .cons hm' (ih fun td h => hm td (List.mem_cons_of_mem _ h))
  exact key _ _ (fun _ h => h) hts

/-- **C61.** If the devices are read without exception, then every device is listed under its name with its parameters and
with exactly one message per terminal, which has the net and the shapes of the terminal; no other device is listed. -/
theorem devices_exact_partial (x : Context) (ds : List DbDevice) (hn : (ds.map (·.name)).Nodup) (hc : ∀ d ∈ ds, Consistent d)
    (dd : Dict String Device) (h : devicesByName x ds = .ok dd) :
    List.Forall₂ (fun d e => e.1 = d.name ∧ DeviceFor x d e.2) ds dd := by
  have key : ∀ (ds : List DbDevice) (dd0 dd : Dict String Device), (ds.map (·.name)).Nodup →
      (∀ d ∈ ds, Consistent d ∧ d.name ∉ Dict.keys dd0) →
      ds.foldlM (fun dd d => do return Dict.set dd d.name (← deviceOf x d)) dd0 = .ok dd →
      ∃ rest, dd = dd0 ++ rest ∧ List.Forall₂ (fun d e => e.1 = d.name ∧ DeviceFor x d e.2) ds rest := by
    intro ds
    induction ds with
    | nil =>
      intro dd0 dd _ _ h
      rw [List.foldlM_nil, pure_ok] at h
      exact ⟨[], by rw [h, List.append_nil], .nil⟩
    | cons d ds ih =>
      intro dd0 dd hnd hcs h
      rw [List.foldlM_cons, bind_ok] at h
      obtain ⟨dd1, h1, h⟩ := h
      rw [bind_ok] at h1
      obtain ⟨m, hm, h1⟩ := h1
      rw [pure_ok] at h1
      have hnew : ∀ (dd0 : Dict String Device), d.name ∉ Dict.keys dd0 → Dict.set dd0 d.name m = dd0 ++ [(d.name, m)] := by
        intro dd0 hk
        induction dd0 with
        | nil => rfl
        | cons e dd0 ih =>
          obtain ⟨k, w⟩ := e
          have hk' : k ≠ d.name ∧ d.name ∉ Dict.keys dd0 := by
            simp only [Dict.keys, List.map_cons, List.mem_cons, not_or] at hk
            exact ⟨fun h => hk.1 h.symm, hk.2⟩
          simp [Dict.set, hk'.1, ih hk'.2]
      rw [hnew dd0 (hcs d List.mem_cons_self).2] at h1
      subst h1
      rw [List.map_cons, List.nodup_cons] at hnd
      obtain ⟨rest, e, hf⟩ := ih _ dd hnd.2 (by
        intro d' hd'
        refine ⟨(hcs d' (List.mem_cons_of_mem _ hd')).1, ?_⟩
        intro hk
        rw [Dict.keys, List.map_append, List.mem_append] at hk
        rcases hk with hk | hk
        · exact (hcs d' (List.mem_cons_of_mem _ hd')).2 hk
        · simp only [List.map_cons, List.map_nil, List.mem_singleton] at hk
          exact hnd.1 (hk ▸ List.mem_map_of_mem hd')) h
      refine ⟨(d.name, m) :: rest, by rw [e, List.append_assoc]; rfl, .cons ⟨rfl, ?_⟩ hf⟩
      exact deviceOf_ok x d (hcs d List.mem_cons_self).1 m hm
  obtain ⟨rest, e, hf⟩ := key ds [] dd hn (fun d hd => ⟨hc d hd, by simp [Dict.keys]⟩) h
  rw [List.nil_append] at e
  subst e
  exact hf

theorem foldlM_error {α β : Type} (f : β → α → Except String β) (l : List α) (a : α) (ha : a ∈ l)
    (h : ∀ b c, f b a ≠ .ok c) (b c : β) : l.foldlM f b ≠ .ok c := by
  induction l generalizing b with
  | nil => cases ha
  | cons a' l ih =>
    intro hc
    rw [List.foldlM_cons, bind_ok] at hc
    obtain ⟨b', hb', hc⟩ := hc
    rcases List.mem_cons.1 ha with rfl | ha
    · exact h b b' hb'
    · exact ih ha b' hc

/-- **C61, failure.** One unconnected terminal of one device makes reading the devices fail. -/
theorem unconnected_terminal_fails (x : Context) (ds : List DbDevice) (d : DbDevice) (hd : d ∈ ds) (td : Nat × String)
    (htd : td ∈ d.terminals) (hn : d.netFor td.1 = none) (dd : Dict String Device) : devicesByName x ds ≠ .ok dd := by
  refine foldlM_error _ _ _ hd ?_ _ _
  intro b c h
  rw [bind_ok] at h
  obtain ⟨m, hm, _⟩ := h
  unfold deviceOf at hm
  rw [bind_ok] at hm
  obtain ⟨ts, hts, _⟩ := hm
  refine mapM_error (terminalsOf x d) _ td htd "AttributeError" ?_ ts hts
  unfold terminalsOf; rw [hn]

end Verif.Lvs
