import Verif.RRequest.Ok
import Verif.RRequest.Requests

/-!
# When the request for the resistor extractor can be prepared (C88)
-/

namespace Verif.RRequest

open TechInfo (Tech GDSPair Kind Purpose ComputedLayer LayerInfo computedByName computedByPair canonicalByPair layerByPair
  gdsPairForLayer gdsPairForComputed IsLast single_lookups)
open Lvs
open Shapes (Polygon Pt)
open Exc

/-! ### Specification -/

/-- The technology knows the layer with index `i` of the LVS database, by its name or by its pair. -/
def LayerKnown (t : Tech) (bb : Bool) (db : List DbLayer) (i : Nat) : Prop :=
  ∃ l ∈ db, l.index = i ∧ ∃ p c, MapsTo t bb l p ∧ KnownPair t p c

/-- All terminals of the device are connected, and the technology knows the layers they are on. -/
def DeviceReadable (t : Tech) (bb : Bool) (db : List DbLayer) (d : DbDevice) : Prop :=
  ∀ td ∈ d.terminals, ∃ n, d.netFor td.1 = some n ∧
    ∀ nt ∈ n.terminals, nt.device = d.name → nt.terminal = td.1 → ∀ e ∈ nt.shapes, LayerKnown t bb db e.1

/-- The pins of a layer of the technology can be read: there are not two LVS layers with its pin pair, and the first pin
shape under each label has a net. -/
def PinsReadable (t : Tech) (bb : Bool) (db : List DbLayer) (v : Env) (lay : LayerInfo) : Prop :=
  (∀ s s', Source t bb db s → Source t bb db s' → s.pair = lay.pin → s'.pair = lay.pin → s = s') ∧
  ∀ s, Source t bb db s → s.pair = lay.pin → ∀ label ∈ v.texts lay.label, ∀ P₁ q P₂, s.shapes = P₁ ++ q :: P₂ →
    v.inside q label.2 = true → (∀ r ∈ P₁, v.inside r label.2 = false) → q.net ≠ none

/-! ### Proofs: devices -/

theorem terminalRegion_ok_iff (t : Tech) (bb : Bool) (db : List DbLayer) (hd : (db.map (·.index)).Nodup)
    (e : Nat × List Polygon) : (∃ r, terminalRegion (prepare t bb db) e = .ok r) ↔ LayerKnown t bb db e.1 := by
  have ok := mapOK t bb db hd
  constructor
  · rintro ⟨r, h⟩
    obtain ⟨n, pair, c, h1, h2, h3, _⟩ := terminalRegion_ok _ _ _ h
    obtain ⟨l, hl, hi⟩ := ok.from_db _ _ h1
    refine ⟨l, hl, hi, pair, c, ?_, h3⟩
    rw [← pairFor_iff]
    cases hp : pairFor t bb l with
    | none =>
      have := ok.miss l hl hp
      rw [hi] at this
      rw [show (prepare t bb db).layerMap = buildLayerMap t bb db from rfl, this] at h1
      cases h1
    | some p =>
      obtain ⟨n', g1, g2, _⟩ := ok.hit l hl p hp
      rw [hi] at g1
      rw [show (prepare t bb db).layerMap = buildLayerMap t bb db from rfl] at h1 h2
      rw [h1] at g1
      cases g1
      rw [h2] at g2
      exact g2.symm
  · rintro ⟨l, hl, hi, p, c, ha, hk⟩
    obtain ⟨n, g1, g2, _⟩ := ok.hit l hl p ((pairFor_iff t bb l p).2 ha)
    rw [hi] at g1
    unfold terminalRegion
    rw [show (prepare t bb db).layerMap = buildLayerMap t bb db from rfl, g1]
    simp only [Option.elim_some, bind, Except.bind]
    rw [g2]
    simp only [Option.elim_some]
    rw [show (canonicalByPair (prepare t bb db).tech).get? p = some c.original from
      (canonical_known t _ _).2 ⟨c, hk, rfl⟩]
    exact ⟨_, rfl⟩

theorem foldlM_ok_iff {α β : Type} (f : β → α → Except String β) (P : α → Prop) (l : List α)
    (hf : ∀ a ∈ l, ∀ b, (∃ c, f b a = .ok c) ↔ P a) (b : β) : (∃ c, l.foldlM f b = .ok c) ↔ ∀ a ∈ l, P a := by
  induction l generalizing b with
  | nil => exact iff_of_true ⟨b, rfl⟩ nofun
  | cons a l ih =>
    rw [List.foldlM_cons, bind_ok_iff, List.forall_mem_cons, ← hf a List.mem_cons_self b]
    have ih' := fun b => ih (fun a ha => hf a (List.mem_cons_of_mem _ ha)) b
    constructor
    · rintro ⟨c, hc, h⟩
      exact ⟨⟨c, hc⟩, (ih' c).1 h⟩
    · rintro ⟨⟨c, hc⟩, h⟩
      exact ⟨c, hc, (ih' c).2 h⟩

theorem terminalsOf_ok_iff (t : Tech) (bb : Bool) (db : List DbLayer) (hd : (db.map (·.index)).Nodup) (d : DbDevice)
    (td : Nat × String) : (∃ r, terminalsOf (prepare t bb db) d td = .ok r) ↔ ∃ n, d.netFor td.1 = some n ∧
      ∀ nt ∈ n.terminals, nt.device = d.name → nt.terminal = td.1 → ∀ e ∈ nt.shapes, LayerKnown t bb db e.1 := by
  unfold terminalsOf
  cases hn : d.netFor td.1 with
  | none => exact iff_of_false (fun ⟨_, h⟩ => nomatch h) (fun ⟨_, h, _⟩ => nomatch h)
  | some n =>
    simp only [mapM_ok_iff, List.mem_filter, Bool.and_eq_true, beq_iff_eq, Option.some.injEq, exists_eq_left', and_imp]
    refine forall_congr' fun nt => forall_congr' fun _ => forall_congr' fun _ => forall_congr' fun _ => ?_
    rw [bind_ok_iff]
    have : (∃ a, nt.shapes.mapM (terminalRegion (prepare t bb db)) = .ok a ∧
        ∃ b, (pure ⟨d.id, td.1, td.2, n.name, a⟩ : Except String Terminal) = .ok b) ↔
        ∃ a, nt.shapes.mapM (terminalRegion (prepare t bb db)) = .ok a :=
      ⟨fun ⟨a, h, _⟩ => ⟨a, h⟩, fun ⟨a, h⟩ => ⟨a, h, _, rfl⟩⟩
    rw [this, mapM_ok_iff]
    exact forall_congr' fun e => forall_congr' fun _ => terminalRegion_ok_iff t bb db hd e

/-- **C61, when.** The devices can be read exactly if all their terminals are connected and the technology knows the layers
they are on. -/
theorem devices_ok_iff (t : Tech) (bb : Bool) (db : List DbLayer) (hd : (db.map (·.index)).Nodup) (ds : List DbDevice) :
    (∃ dd, devicesByName (prepare t bb db) ds = .ok dd) ↔ ∀ d ∈ ds, DeviceReadable t bb db d := by
  refine foldlM_ok_iff _ _ _ (fun d _ dd => ?_) _
  rw [bind_ok_iff]
  have h1 : (∃ a, deviceOf (prepare t bb db) d = .ok a ∧ ∃ c, (pure (Dict.set dd d.name a) : Except String _) = .ok c) ↔
      ∃ a, deviceOf (prepare t bb db) d = .ok a := ⟨fun ⟨a, h, _⟩ => ⟨a, h⟩, fun ⟨a, h⟩ => ⟨a, h, _, rfl⟩⟩
  rw [h1]
  unfold deviceOf
  rw [bind_ok_iff]
  have h2 : (∃ a, d.terminals.mapM (terminalsOf (prepare t bb db) d) = .ok a ∧
      ∃ b, (pure ⟨d.id, d.name, d.className, d.abstractName, d.params, a.flatten⟩ : Except String Device) = .ok b) ↔
      ∃ a, d.terminals.mapM (terminalsOf (prepare t bb db) d) = .ok a :=
    ⟨fun ⟨a, h, _⟩ => ⟨a, h⟩, fun ⟨a, h⟩ => ⟨a, h, _, rfl⟩⟩
  rw [h2, mapM_ok_iff]
  exact forall_congr' fun td => forall_congr' fun _ => terminalsOf_ok_iff t bb db hd d td

/-! ### Proofs: pins -/

theorem source_known {t : Tech} {bb : Bool} {db : List DbLayer} {s : ExtractedLayer} (h : Source t bb db s) :
    ∃ c, KnownPair t s.pair c := by
  obtain ⟨l, c, _, _, hk, _, e⟩ := h
  rw [show s.pair = c.info.drw from congrArg ExtractedLayer.pair e]
  cases hg : (computedByPair t).get? c.info.drw with
  | some c' => exact ⟨c', (pair_known t _ _).1 hg⟩
  | none =>
    unfold computedByPair at hg
    exact absurd rfl ((TechInfo.ofList_map_none _ _ _ _).1 hg c hk.mem)

theorem pinNet_ok_iff (v : Env) (P : List Polygon) (pos : Pt) : (∃ n, pinNet v P pos = .ok n) ↔
    ∀ P₁ q P₂, P = P₁ ++ q :: P₂ → v.inside q pos = true → (∀ r ∈ P₁, v.inside r pos = false) → q.net ≠ none := by
  unfold pinNet
  cases hf : P.find? (fun p => v.inside p pos) with
  | none =>
    refine iff_of_true ⟨_, rfl⟩ ?_
    rintro P₁ q P₂ rfl hq
    exact absurd hq (List.find?_eq_none.1 hf q (List.mem_append_right _ List.mem_cons_self))
  | some q =>
    obtain ⟨hq, P1, P2, e, hn⟩ := List.find?_eq_some_iff_append.1 hf
    have huniq : ∀ P₁ q' P₂, P = P₁ ++ q' :: P₂ → v.inside q' pos = true → (∀ r ∈ P₁, v.inside r pos = false) → q' = q := by
      intro P₁ q' P₂ h1 h2 h3
      have : P.find? (fun p => v.inside p pos) = some q' :=
        List.find?_eq_some_iff_append.2 ⟨h2, P₁, P₂, h1, fun r hr => by rw [h3 r hr]; rfl⟩
      rw [hf] at this
      exact (Option.some.inj this).symm
    have hn' : ∀ r ∈ P1, v.inside r pos = false := fun r hr => by simpa using hn r hr
    simp only
    cases hnet : q.net with
    | none => exact iff_of_false (fun ⟨_, h⟩ => nomatch h) fun h => h P1 q P2 e hq hn' hnet
    | some m =>
      refine iff_of_true ⟨_, rfl⟩ ?_
      intro P₁ q' P₂ h1 h2 h3 h4
      rw [huniq P₁ q' P₂ h1 h2 h3, hnet] at h4
      cases h4

theorem pinsOfLayer_ok_iff (t : Tech) (bb : Bool) (db : List DbLayer) (hd : (db.map (·.index)).Nodup) (gp : GDSPair)
    (lay : LayerInfo) (hl : IsLast (fun l => l.drw = gp) t.layers lay) :
    (∃ P, pinsOfLayer (prepare t bb db) gp = .ok P) ↔
      ∀ s s', Source t bb db s → Source t bb db s' → s.pair = lay.pin → s'.pair = lay.pin → s = s' := by
  constructor
  · rintro ⟨P, h⟩ s s' hs hs' e e'
    rcases pinsOfLayer_ok t bb db hd gp lay hl P h with ⟨hno, _⟩ | ⟨s0, _, _, h0, _⟩
    · exact absurd e (hno s hs)
    · rw [h0 s hs e, h0 s' hs' e']
  · intro h
    unfold pinsOfLayer
    have hl' : (layerByPair (prepare t bb db).tech).get? gp = some lay := ((single_lookups t).2.2.2.1 gp lay).2 hl
    rw [hl']
    simp only
    cases hg : (prepare t bb db).layers.extracted.get? lay.pin with
    | none => exact ⟨_, rfl⟩
    | some m =>
      obtain ⟨h1, h2, h3⟩ := get?_extracted t bb db hd lay.pin m hg
      rcases hm : m.sources with _ | ⟨s1, _ | ⟨s2, rest⟩⟩
      · exact absurd hm h1
      · exact ⟨s1.shapes, by simp only [hm]⟩
      · rw [hm] at h2 h3
        have m1 := (h2 s1).1 List.mem_cons_self
        have m2 := (h2 s2).1 (List.mem_cons_of_mem _ List.mem_cons_self)
        have := h s1 s2 m1.1 m2.1 m1.2 m2.2
        subst this
        simp at h3

theorem pinsOfSource_ok_iff (t : Tech) (bb : Bool) (db : List DbLayer) (hd : (db.map (·.index)).Nodup) (v : Env)
    (gp : GDSPair) (lay : LayerInfo) (hl : IsLast (fun l => l.drw = gp) t.layers lay) (s : ExtractedLayer)
    (hs : Source t bb db s) :
    (∃ r, pinsOfSource (prepare t bb db) v gp s = .ok r) ↔ PinsReadable t bb db v lay := by
  unfold pinsOfSource PinsReadable
  rw [bind_ok_iff, ← pinsOfLayer_ok_iff t bb db hd gp lay hl]
  have hl' : (layerByPair (prepare t bb db).tech).get? gp = some lay := ((single_lookups t).2.2.2.1 gp lay).2 hl
  have hlab : labelsOfLayer (prepare t bb db) v gp = .ok (v.texts lay.label) := by
    unfold labelsOfLayer
    rw [hl']
  obtain ⟨c, hc⟩ := source_known hs
  have hcan : (canonicalByPair (prepare t bb db).tech).get? s.pair = some c.original :=
    (canonical_known t _ _).2 ⟨c, hc, rfl⟩
  have hcom : (computedByPair (prepare t bb db).tech).get? s.pair = some c := (pair_known t _ _).2 hc
  have inner : ∀ P, (∃ r, (labelsOfLayer (prepare t bb db) v gp >>= fun labels =>
      (labels.filter fun l => P.any fun p => v.inside p l.2).mapM fun l => do
        let net ← pinNet v P l.2
        let canonical ← ((canonicalByPair (prepare t bb db).tech).get? s.pair).elim (.error "KeyError") .ok
        let c ← ((computedByPair (prepare t bb db).tech).get? s.pair).elim (.error "KeyError") .ok
        return ({ label := l.1, net := net, layer := ⟨v.layerOf s.pair, canonical, c.info.name⟩, point := l.2 } : Pin) :
        Except String (List Pin)) = .ok r) ↔
      ∀ label ∈ v.texts lay.label, ∀ P₁ q P₂, P = P₁ ++ q :: P₂ → v.inside q label.2 = true →
        (∀ r ∈ P₁, v.inside r label.2 = false) → q.net ≠ none := by
    intro P
    rw [hlab]
    simp only [bind, Except.bind, hcan, hcom, Option.elim_some]
    rw [mapM_ok_iff]
    constructor
    · intro h label hm P₁ q P₂ e hq hn
      have hany : (P.any fun p => v.inside p label.2) = true :=
        List.any_eq_true.2 ⟨q, e ▸ List.mem_append_right _ List.mem_cons_self, hq⟩
      obtain ⟨b, hb⟩ := h label (List.mem_filter.2 ⟨hm, hany⟩)
      cases hp : pinNet v P label.2 with
      | error m => rw [hp] at hb; cases hb
      | ok n => exact (pinNet_ok_iff v P label.2).1 ⟨n, hp⟩ P₁ q P₂ e hq hn
    · intro h label hm
      obtain ⟨n, hn⟩ := (pinNet_ok_iff v P label.2).2 (h label (List.mem_filter.1 hm).1)
      rw [hn]
      exact ⟨_, rfl⟩
  constructor
  · rintro ⟨P, hP, hr⟩
    refine ⟨⟨P, hP⟩, fun s' hs' e label hlab' P₁ q P₂ e' => ?_⟩
    rcases pinsOfLayer_ok t bb db hd gp lay hl P hP with ⟨hno, _⟩ | ⟨s0, _, _, h0, rfl⟩
    · exact absurd e (hno s' hs')
    · rw [h0 s' hs' e] at e'
      exact (inner _).1 hr label hlab' P₁ q P₂ e'
  · rintro ⟨⟨P, hP⟩, h⟩
    refine ⟨P, hP, (inner P).2 ?_⟩
    intro label hm P₁ q P₂ e
    rcases pinsOfLayer_ok t bb db hd gp lay hl P hP with ⟨_, rfl⟩ | ⟨s0, h1, h2, _, rfl⟩
    · exact absurd e (by simp)
    · exact h s0 h1 h2 label hm P₁ q P₂ e

/-- **C60, when.** The pins can be read exactly if the pins of every layer of the technology can be read of which an LVS layer
of the layout is a part. -/
theorem pins_ok_iff (t : Tech) (bb : Bool) (db : List DbLayer) (hd : (db.map (·.index)).Nodup) (v : Env) :
    (∃ d, pinsByLayer (prepare t bb db) v = .ok d) ↔ ∀ s, Source t bb db s → ∀ gp lay, DrawnAs t s.pair gp →
      IsLast (fun l => l.drw = gp) t.layers lay → PinsReadable t bb db v lay := by
  unfold pinsByLayer
  rw [bind_ok_iff]
  have h1 : (∃ a, (prepare t bb db).layers.extracted.mapM (pinsOfMerged (prepare t bb db) v) = .ok a ∧
      ∃ b, (pure (groupBy Prod.fst Prod.snd a.flatten) : Except String (Dict GDSPair (List Pin))) = .ok b) ↔
      ∃ a, (prepare t bb db).layers.extracted.mapM (pinsOfMerged (prepare t bb db) v) = .ok a :=
    ⟨fun ⟨a, h, _⟩ => ⟨a, h⟩, fun ⟨a, h⟩ => ⟨a, h, _, rfl⟩⟩
  rw [h1, mapM_ok_iff]
  have hmem : ∀ e ∈ (prepare t bb db).layers.extracted, e.2.sources ≠ [] ∧
      ∀ s, s ∈ e.2.sources ↔ Source t bb db s ∧ s.pair = e.1 := by
    rintro ⟨pair, m⟩ he
    exact ⟨((layers_exact t bb db hd).2.1 pair m he).2.1, ((layers_exact t bb db hd).2.1 pair m he).2.2.1⟩
  have one : ∀ e ∈ (prepare t bb db).layers.extracted, (∃ b, pinsOfMerged (prepare t bb db) v e = .ok b) ↔
      ∀ gp lay, DrawnAs t e.1 gp → IsLast (fun l => l.drw = gp) t.layers lay → PinsReadable t bb db v lay := by
    rintro ⟨pair, m⟩ he
    obtain ⟨hne, hsrc⟩ := hmem _ he
    obtain ⟨s0, hs0⟩ := List.exists_mem_of_ne_nil _ hne
    obtain ⟨c, hc⟩ := source_known ((hsrc s0).1 hs0).1
    rw [((hsrc s0).1 hs0).2] at hc
    have hcan : (canonicalByPair (prepare t bb db).tech).get? pair = some c.original := (canonical_known t _ _).2 ⟨c, hc, rfl⟩
    unfold pinsOfMerged
    rw [hcan]
    simp only [Option.elim_some, bind, Except.bind]
    cases hg : (gdsPairForLayer (prepare t bb db).tech).get? c.original with
    | none =>
      refine iff_of_true ⟨_, rfl⟩ ?_
      rintro gp lay ⟨c', l, hc', hl, e⟩ _
      have hg' := (layer_pair t c'.original gp).2 ⟨l, hl, e⟩
      rw [isLast_unique hc' hc] at hg'
      rw [show (gdsPairForLayer t).get? c.original = none from hg] at hg'
      cases hg'
    | some gp0 =>
      obtain ⟨l0, hl0, e0⟩ := (layer_pair t _ _).1 hg
      have hdr : DrawnAs t pair gp0 := ⟨c, l0, hc, hl0, e0⟩
      have hmemlay : ∃ lay, IsLast (fun l => l.drw = gp0) t.layers lay := by
        cases hl : (layerByPair t).get? gp0 with
        | some lay => exact ⟨lay, ((single_lookups t).2.2.2.1 gp0 lay).1 hl⟩
        | none =>
          unfold layerByPair at hl
          exact absurd e0 ((TechInfo.ofList_map_none _ _ _ _).1 hl l0 hl0.mem)
      obtain ⟨lay, hlay⟩ := hmemlay
      have hhas : Dict.has (layerByPair (prepare t bb db).tech) gp0 = true := by
        rw [Dict.has, show (layerByPair (prepare t bb db).tech).get? gp0 = some lay from
          ((single_lookups t).2.2.2.1 gp0 lay).2 hlay]
        rfl
      simp only [hhas, Bool.not_true, Bool.false_eq_true, if_false]
      have huniq : ∀ gp, DrawnAs t pair gp → gp = gp0 := by
        rintro gp ⟨c', l, hc', hl, e⟩
        rw [isLast_unique hc' hc] at hl
        rw [← e, ← e0, isLast_unique hl hl0]
      have h2 : ∀ o : Except String (List (List Pin)), (∃ b, (Except.bind o fun pins =>
          pure (pins.flatten.map fun p => (gp0, p)) : Except String (List (GDSPair × Pin))) = .ok b) ↔
          ∃ pins, o = .ok pins := by
        intro o
        cases o with
        | error e => exact iff_of_false (fun ⟨_, h⟩ => nomatch h) (fun ⟨_, h⟩ => nomatch h)
        | ok pins => exact iff_of_true ⟨_, rfl⟩ ⟨_, rfl⟩
      refine Iff.trans (h2 (m.sources.mapM (pinsOfSource (prepare t bb db) v gp0))) ?_
      rw [mapM_ok_iff]
      constructor
      · intro h gp lay' hdr' hlay'
        obtain rfl := huniq gp hdr'
        exact (pinsOfSource_ok_iff t bb db hd v gp lay' hlay' s0 ((hsrc s0).1 hs0).1).1 (h s0 hs0)
      · intro h s hs
        exact (pinsOfSource_ok_iff t bb db hd v gp0 lay hlay s ((hsrc s).1 hs).1).2 (h gp0 lay hdr hlay)
  constructor
  · intro h s hs
    obtain ⟨e, he, hp⟩ := List.mem_map.1 ((layers_exact t bb db hd).2.2.1 s hs)
    rw [← hp]
    exact (one e he).1 (h e he)
  · intro h e he
    refine (one e he).2 ?_
    obtain ⟨hne, hsrc⟩ := hmem _ he
    obtain ⟨s0, hs0⟩ := List.exists_mem_of_ne_nil _ hne
    rw [← ((hsrc s0).1 hs0).2]
    exact h s0 ((hsrc s0).1 hs0).1

/-! ### Proofs: the request -/

theorem netShapes_total (t : Tech) (bb : Bool) (db : List DbLayer) (hd : (db.map (·.index)).Nodup) (v : Env) (ef : Bool)
    (net : String) {e : GDSPair × Merged} (he : e ∈ (prepare t bb db).layers.extracted) {s : ExtractedLayer}
    (hs : s ∈ e.2.sources) (d : Dict String NetRequest) : ∃ d', netShapes (prepare t bb db) v ef net e.1 s d = .ok d' := by
  obtain ⟨hsrc, hp⟩ := (((layers_exact t bb db hd).2.1 e.1 e.2 he).2.2.1 s).1 hs
  obtain ⟨c, hc⟩ := source_known hsrc
  unfold netShapes
  rw [show (computedByPair (prepare t bb db).tech).get? s.pair = some c from (pair_known t _ _).2 hc]
  simp only
  split
  · have hsh : ∃ r, shapesOfNet (prepare t bb db) s.pair net = .ok r := by
      unfold shapesOfNet
      cases hg : (prepare t bb db).layers.extracted.get? s.pair with
      | none => exact ⟨_, rfl⟩
      | some m =>
        have hne := (get?_extracted t bb db hd s.pair m hg).1
        simp only
        cases hm : m.sources with
        | nil => exact absurd hm hne
        | cons a l => exact ⟨_, rfl⟩
    obtain ⟨r, hr⟩ := hsh
    rw [hr]
    cases r with
    | none => exact ⟨_, rfl⟩
    | some r =>
      show ∃ d', addRegion _ _ _ _ _ _ _ _ = .ok d'
      unfold addRegion
      split
      · exact ⟨_, rfl⟩
      · rw [show (canonicalByPair (prepare t bb db).tech).get? e.1 = some c.original from
          (canonical_known t _ _).2 ⟨c, hp ▸ hc, rfl⟩]
        exact ⟨_, rfl⟩
  · exact ⟨_, rfl⟩

/-- **C88, the whole request.** The request for the resistor extractor can be prepared exactly if the technology describes
all LVS layers of the layout, the devices and the pins can be read, and the netlist has a circuit for the top cell. -/
theorem request_ok_iff (t : Tech) (bb : Bool) (db : List DbLayer) (hd : (db.map (·.index)).Nodup) (v : Env) (cfg : Config)
    (skipEmpty : Bool) (ds : List DbDevice) (nets : Option (List String)) :
    (∃ q, prepareRequest (prepare t bb db) v cfg skipEmpty ds nets = .ok q) ↔
      (∀ s, Source t bb db s → Described t s) ∧ (∀ d ∈ ds, DeviceReadable t bb db d) ∧
      (∀ s, Source t bb db s → ∀ gp lay, DrawnAs t s.pair gp → IsLast (fun l => l.drw = gp) t.layers lay →
        PinsReadable t bb db v lay) ∧ nets ≠ none := by
  rw [← tech_ok_iff t bb db hd v cfg, ← devices_ok_iff t bb db hd, ← pins_ok_iff t bb db hd]
  unfold prepareRequest
  rw [bind_ok_iff]
  constructor
  · rintro ⟨T, hT, h⟩
    rw [bind_ok_iff] at h
    obtain ⟨dd, hdd, h⟩ := h
    rw [bind_ok_iff] at h
    obtain ⟨pb, hpb, h⟩ := h
    refine ⟨⟨T, hT⟩, ⟨dd, hdd⟩, ⟨pb, hpb⟩, ?_⟩
    rintro rfl
    obtain ⟨q, h⟩ := h
    cases h
  · rintro ⟨⟨T, hT⟩, ⟨dd, hdd⟩, ⟨pb, hpb⟩, hn⟩
    refine ⟨T, hT, ?_⟩
    rw [bind_ok_iff]
    refine ⟨dd, hdd, ?_⟩
    rw [bind_ok_iff]
    refine ⟨pb, hpb, ?_⟩
    obtain ⟨ns, rfl⟩ := Option.ne_none_iff_exists'.1 hn
    simp only [Option.elim_some]
    have : ∀ d, ∃ d', ns.foldlM (fun d net => (prepare t bb db).layers.extracted.foldlM (fun d e =>
        e.2.sources.foldlM (fun d s => netShapes (prepare t bb db) v skipEmpty net e.1 s d) d) d) d = .ok d' := by
      intro d
      refine (foldlM_ok_iff _ (fun _ => True) _ (fun net _ d => iff_of_true ?_ trivial) d).2 fun _ _ => trivial
      refine (foldlM_ok_iff _ (fun _ => True) _ (fun e he d => iff_of_true ?_ trivial) d).2 fun _ _ => trivial
      refine (foldlM_ok_iff _ (fun _ => True) _ (fun s hs d => iff_of_true ?_ trivial) d).2 fun _ _ => trivial
      exact netShapes_total t bb db hd v skipEmpty net he hs d
    rw [bind_ok_iff]
    refine ⟨ns, rfl, ?_⟩
    rw [bind_ok_iff]
    obtain ⟨d', hd'⟩ := this _
    exact ⟨d', hd', _, rfl⟩

end Verif.RRequest
