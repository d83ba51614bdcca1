import Verif.RRequest.Props

/-!
# The ports of a request and the conductors of its technology (C64)
-/

namespace Verif.RRequest

open TechInfo (Tech GDSPair Kind ComputedLayer computedByPair canonicalByPair IsLast)
open Shapes (Polygon Pt)
open Lvs
open Exc

/-! ### Specification -/

/-- Terminal `td` of device `d` is connected to net `n` and has the shapes `P` on the LVS layer `l`. -/
def Touches (d : DbDevice) (td : Nat × String) (n : Net) (l : DbLayer) (P : List Polygon) : Prop :=
  td ∈ d.terminals ∧ d.netFor td.1 = some n ∧
    ∃ nt ∈ n.terminals, nt.device = d.name ∧ nt.terminal = td.1 ∧ (l.index, P) ∈ nt.shapes

/-- The request asks for the terminal `td` of `d` as a port of net `n` and describes its shapes `P` by the region `r`. -/
def PortOf (q : Request) (d : DbDevice) (td : Nat × String) (n : Net) (P : List Polygon) (r : LayerRegion) : Prop :=
  ∃ part, (n.name, part) ∈ q.nets ∧ ∃ m ∈ part.terminals, m.deviceId = d.id ∧ m.terminalId = td.1 ∧ m.net = n.name ∧
    r ∈ m.regions ∧ r.region.polygons = P.map Message

/-! ### Proofs -/

theorem termRegion_layer (t : Tech) (bb : Bool) (db : List DbLayer) (hd : (db.map (·.index)).Nodup) {l : DbLayer}
    (hl : l ∈ db) {P : List Polygon} {r : LayerRegion} (h : TermRegion (prepare t bb db) (l.index, P) r) :
    ∃ p c, MapsTo t bb l p ∧ (prepare t bb db).layerMap.map.get? l.index = some r.layer.id ∧
      (prepare t bb db).layerMap.infos[r.layer.id]? = some p ∧ KnownPair t p c ∧ r.layer.canonical = c.original := by
  obtain ⟨n, pair, c, h1, h2, h3, h4, _⟩ := h
  have e : r.layer.id = n := by rw [h4]
  refine ⟨pair, c, ?_, by rw [e]; exact h1, by rw [e]; exact h2, h3, by rw [h4]⟩
  obtain ⟨l', hl', hm, hg⟩ := infos_from t bb db hd n pair h2
  have hidx := (mapOK t bb db hd).inj _ _ _ hg h1
  have : l' = l := List.inj_on_of_nodup_map hd hl' hl hidx
  rw [← this]; exact hm

theorem mapsTo_unique {t : Tech} {bb : Bool} {l : DbLayer} {p p' : GDSPair} (h : MapsTo t bb l p) (h' : MapsTo t bb l p') :
    p = p' := by
  rw [← pairFor_iff] at h h'
  exact Option.some.inj (h.symm.trans h')

/-- Every terminal of the layout is a port of the request, on the layer given to its LVS layer. -/
theorem port_exists (t : Tech) (bb : Bool) (db : List DbLayer) (hd : (db.map (·.index)).Nodup) (v : Env) (cfg : Config)
    (skipEmpty : Bool) (ds : List DbDevice) (hnames : (ds.map (·.name)).Nodup) (hcon : ∀ d ∈ ds, Consistent d)
    (nets : List String) (hn : nets.Nodup) (q : Request)
    (h : prepareRequest (prepare t bb db) v cfg skipEmpty ds (some nets) = .ok q) (d : DbDevice) (hdd : d ∈ ds)
    (td : Nat × String) (n : Net) (l : DbLayer) (P : List Polygon) (ht : Touches d td n l P) :
    ∃ r, PortOf q d td n P r ∧ TermRegion (prepare t bb db) (l.index, P) r := by
  obtain ⟨⟨tech, dd, pb, _, _, h2, h3, _, _⟩, hkeys, hiff, hparts⟩ := request_exact_partial t bb db hd v cfg skipEmpty ds nets hn q h
  have hex := devices_exact_partial _ ds hnames hcon dd h2
  obtain ⟨i, hi, ei⟩ := List.getElem_of_mem hdd
  have hlen := hex.length_eq
  obtain ⟨_, hdev⟩ := (List.forall₂_iff_get.1 hex).2 i hi (by omega)
  have hdev : DeviceFor (prepare t bb db) d (dd[i]'(by omega)).2 := by rw [← ei]; exact hdev
  have hmem : (dd[i]'(by omega)).2 ∈ q.devices := by
    rw [h3]; exact List.mem_map_of_mem (List.getElem_mem _)
  obtain ⟨a1, a2, nt, b1, b2, b3, b4⟩ := ht
  obtain ⟨hid, _, _, _, _, hterm⟩ := hdev
  obtain ⟨j, hj, ej⟩ := List.getElem_of_mem a1
  have hlen' := hterm.length_eq
  have hm := (List.forall₂_iff_get.1 hterm).2 j hj (by omega)
  obtain ⟨n', nt', c1, c2, c3, c4, c5, c6, c7, c8, c9⟩ := hm
  have ej' : d.terminals.get ⟨j, hj⟩ = td := ej
  rw [ej'] at c1 c4 c6
  rw [a2] at c1
  obtain rfl := Option.some.inj c1
  -- the net refers back once
  obtain ⟨nt0, h0⟩ := hcon d hdd td a1 n a2
  have m1 : nt ∈ n.terminals.filter fun nt => nt.device == d.name && nt.terminal == td.1 := by
    rw [List.mem_filter, Bool.and_eq_true, beq_iff_eq, beq_iff_eq]; exact ⟨b1, b2, b3⟩
  have m2 : nt' ∈ n.terminals.filter fun nt => nt.device == d.name && nt.terminal == td.1 := by
    rw [List.mem_filter, Bool.and_eq_true, beq_iff_eq, beq_iff_eq]; exact ⟨c2, c3, c4⟩
  rw [h0, List.mem_singleton] at m1 m2
  subst m1
  subst m2
  obtain ⟨k, hk, ek⟩ := List.getElem_of_mem b4
  have hlen'' := c9.length_eq
  have hr := (List.forall₂_iff_get.1 c9).2 k hk (by omega)
  have ek' : nt'.shapes.get ⟨k, hk⟩ = (l.index, P) := ek
  rw [ek'] at hr
  have hmm : ((dd[i]'(by omega)).2.terminals.get ⟨j, by omega⟩) ∈ (dd[i]'(by omega)).2.terminals := List.getElem_mem _
  have hkey : n.name ∈ q.nets.map Prod.fst := (hiff n.name).2 (.inr (.inl ⟨_, hmem, _, hmm, c8⟩))
  obtain ⟨⟨nm, part⟩, hpart, enm⟩ := List.mem_map.1 hkey
  simp only at enm
  subst enm
  refine ⟨_, ⟨part, hpart, _, ?_, c5, c6, c8, List.getElem_mem _, ?_⟩, hr⟩
  · rw [(hparts _ _ hpart).2.1, List.mem_filter]
    exact ⟨List.mem_flatMap.2 ⟨_, hmem, hmm⟩, by simpa using c8⟩
  · obtain ⟨_, _, _, _, _, _, _, e⟩ := hr
    exact e

/-! ### Theorems -/

/-- **C64 (partial), terminals.** If no other LVS layer becomes a layer with the same GDS pair, every terminal with shapes on
a conductor layer is a port of its net in the request, on the layer of the conductor that the same request declares for it.
Missing: layers that LVS splits, see `request_ports_undeclared`. -/
theorem request_ports_declared_partial (t : Tech) (bb : Bool) (db : List DbLayer) (hd : (db.map (·.index)).Nodup) (v : Env)
    (hv : FindsLayer (prepare t bb db) v) (cfg : Config) (skipEmpty : Bool) (ds : List DbDevice)
    (hnames : (ds.map (·.name)).Nodup) (hcon : ∀ d ∈ ds, Consistent d) (nets : List String) (hn : nets.Nodup) (q : Request)
    (h : prepareRequest (prepare t bb db) v cfg skipEmpty ds (some nets) = .ok q)
    (s : ExtractedLayer) (hs : Source t bb db s) (hc : IsConductor t s) (l : DbLayer) (hl : db[s.idx]? = some l)
    (hone : ∀ l' ∈ db, MapsTo t bb l' s.pair → l' = l)
    (d : DbDevice) (hdd : d ∈ ds) (td : Nat × String) (n : Net) (P : List Polygon) (ht : Touches d td n l P) :
    ∃ r, PortOf q d td n P r ∧
      ∃ k ∈ q.tech.conductors, ConductorFor t v cfg s k ∧ k.layer.id = r.layer.id ∧ k.layer.canonical = r.layer.canonical := by
  have hmem := List.mem_of_getElem? hl
  obtain ⟨r, hr, hreg⟩ := port_exists t bb db hd v cfg skipEmpty ds hnames hcon nets hn q h d hdd td n l P ht
  obtain ⟨p, c, g1, g2, g3, g4, g5⟩ := termRegion_layer t bb db hd hmem hreg
  have hmap : MapsTo t bb l s.pair := by
    obtain ⟨l', c, h1, _, h3, h4, h5⟩ := hs
    rw [hl] at h1; cases h1
    exact .inl ⟨c, h3, h4, by rw [h5]⟩
  obtain rfl := mapsTo_unique g1 hmap
  obtain ⟨tech, dd, pb, ht1, _, _, rfl⟩ := prepareRequest_ok _ v cfg skipEmpty ds nets q h
  obtain ⟨k, hk, hkc⟩ := (conductor_ids t bb db hd v cfg tech ht1).2 s hs hc
  refine ⟨r, hr, k, hk, hkc, ?_, ?_⟩
  · obtain ⟨_, _, e, _⟩ := hkc
    rw [e]
    simp only
    exact layer_from t bb db hd l hmem s.pair hone _ _ (hv _ (source_info t bb db hd s hs)) g2
  · obtain ⟨c', h1, e, _⟩ := hkc
    rw [e, g5, isLast_unique h1 g4]

/-- **C64 fails for layers that LVS splits**: if two LVS layers become layers with the same GDS pair and terminals have shapes
on both, then for at least one of them the port of the request lies on a layer that is no conductor of the request. -/
theorem request_ports_undeclared (t : Tech) (bb : Bool) (db : List DbLayer) (hd : (db.map (·.index)).Nodup) (v : Env)
    (hv : FindsLayer (prepare t bb db) v) (cfg : Config) (skipEmpty : Bool) (ds : List DbDevice)
    (hnames : (ds.map (·.name)).Nodup) (hcon : ∀ d ∈ ds, Consistent d) (nets : List String) (hn : nets.Nodup) (q : Request)
    (h : prepareRequest (prepare t bb db) v cfg skipEmpty ds (some nets) = .ok q)
    (l₁ l₂ : DbLayer) (h₁ : l₁ ∈ db) (h₂ : l₂ ∈ db) (hne : l₁ ≠ l₂) (p : GDSPair) (hp₁ : MapsTo t bb l₁ p)
    (hp₂ : MapsTo t bb l₂ p) (d₁ d₂ : DbDevice) (hd₁ : d₁ ∈ ds) (hd₂ : d₂ ∈ ds) (td₁ td₂ : Nat × String) (n₁ n₂ : Net)
    (P₁ P₂ : List Polygon) (ht₁ : Touches d₁ td₁ n₁ l₁ P₁) (ht₂ : Touches d₂ td₂ n₂ l₂ P₂) :
    ∃ r, (PortOf q d₁ td₁ n₁ P₁ r ∨ PortOf q d₂ td₂ n₂ P₂ r) ∧ ∀ k ∈ q.tech.conductors, k.layer.id ≠ r.layer.id := by
  obtain ⟨r₁, a, b⟩ := port_exists t bb db hd v cfg skipEmpty ds hnames hcon nets hn q h d₁ hd₁ td₁ n₁ l₁ P₁ ht₁
  obtain ⟨r₂, a', b'⟩ := port_exists t bb db hd v cfg skipEmpty ds hnames hcon nets hn q h d₂ hd₂ td₂ n₂ l₂ P₂ ht₂
  obtain ⟨p₁, _, e1, x1, y1, _⟩ := termRegion_layer t bb db hd h₁ b
  obtain ⟨p₂, _, e2, x2, y2, _⟩ := termRegion_layer t bb db hd h₂ b'
  obtain rfl := mapsTo_unique hp₁ e1
  obtain rfl := mapsTo_unique hp₂ e2
  obtain ⟨tech, dd, pb, ht1, _, _, rfl⟩ := prepareRequest_ok _ v cfg skipEmpty ds nets q h
  have hids : ∀ m, (prepare t bb db).layerMap.infos[m]? = some p → ∀ k ∈ tech.conductors, k.layer.id = m → m = v.layerOf p := by
    intro m hm k hk e
    obtain ⟨s, hs, c, _, e', _⟩ := (conductor_ids t bb db hd v cfg tech ht1).1 k hk
    have e'' : v.layerOf s.pair = m := by rw [e'] at e; exact e
    have := hv _ (source_info t bb db hd s hs)
    rw [e'', hm] at this
    rw [Option.some.inj this, e'']
  by_contra hcon'
  push Not at hcon'
  obtain ⟨k1, hk1, e1'⟩ := hcon' r₁ (.inl a)
  obtain ⟨k2, hk2, e2'⟩ := hcon' r₂ (.inr a')
  rw [hids _ y1 k1 hk1 e1'] at x1
  rw [hids _ y2 k2 hk2 e2'] at x2
  exact hne (List.inj_on_of_nodup_map hd h₁ h₂ ((mapOK t bb db hd).inj _ _ _ x1 x2))

/-! ### Examples -/

/-- The hypotheses of `request_ports_declared_partial` are met by the source of the device of the example. -/
example : ∃ q r, prepareRequest (prepare stackTech true stackDb) stackEnv exCfg true [stackDevice] (some ["A"]) = .ok q ∧
    PortOf q stackDevice (0, "S") stackNet [box 0 0 1 1 none] r ∧
    ∃ k ∈ q.tech.conductors, ConductorFor stackTech stackEnv exCfg ⟨0, "nsd", (65, 20), [box 0 0 9 9 (some "A")]⟩ k ∧
      k.layer.id = r.layer.id ∧ k.layer.canonical = r.layer.canonical := by
  obtain ⟨q, h⟩ : ∃ q, prepareRequest (prepare stackTech true stackDb) stackEnv exCfg true [stackDevice] (some ["A"]) = .ok q := ⟨_, rfl⟩
  obtain ⟨r, h1, h2⟩ := request_ports_declared_partial stackTech true stackDb (by decide) stackEnv (by unfold FindsLayer; decide) exCfg true
    [stackDevice] (by decide) (by
      intro d hd td htd n hn
      obtain rfl := List.mem_singleton.1 hd
      obtain rfl := List.mem_singleton.1 htd
      obtain rfl := Option.some.inj hn
      exact ⟨_, rfl⟩) ["A"] (by decide) _ h ⟨0, "nsd", (65, 20), [box 0 0 9 9 (some "A")]⟩
    (((allSources_spec stackTech true stackDb (by decide)).1 _).1 (by decide)) ((condB_iff _ _).1 (by decide)) stackDb[0] rfl (by
      intro l' hl' hm
      rw [← pairFor_iff] at hm
      revert l'
      decide) stackDevice List.mem_cons_self (0, "S") stackNet [box 0 0 1 1 none]
    ⟨List.mem_cons_self, rfl, _, List.mem_cons_self, rfl, rfl, List.mem_cons_self⟩
  exact ⟨q, r, h, h1, h2⟩

/-- A device with a terminal on each of the two LVS layers of `met1`. -/
def splitNet : Net := ⟨"A", [⟨"R1", 0, [(3, [box 0 0 1 1 none])]⟩, ⟨"R1", 1, [(6, [box 40 0 41 1 none])]⟩]⟩

def splitDevice : DbDevice :=
  { id := 1, name := "R1", className := "res", abstractName := "D$res", params := []
    terminals := [(0, "A"), (1, "B")], netFor := fun _ => some splitNet }

/-- The hypotheses of `request_ports_undeclared` are met by this device. -/
example : ∃ q r, prepareRequest (prepare splitTech true splitDb) splitEnv exCfg true [splitDevice] (some ["A"]) = .ok q ∧
    (PortOf q splitDevice (0, "A") splitNet [box 0 0 1 1 none] r ∨ PortOf q splitDevice (1, "B") splitNet [box 40 0 41 1 none] r) ∧
    ∀ k ∈ q.tech.conductors, k.layer.id ≠ r.layer.id := by
  obtain ⟨q, h⟩ : ∃ q, prepareRequest (prepare splitTech true splitDb) splitEnv exCfg true [splitDevice] (some ["A"]) = .ok q := ⟨_, rfl⟩
  obtain ⟨r, h1, h2⟩ := request_ports_undeclared splitTech true splitDb (by decide) splitEnv (by unfold FindsLayer; decide) exCfg true
    [splitDevice] (by decide) (by
      intro d hd td htd n hn
      obtain rfl := List.mem_singleton.1 hd
      obtain rfl := Option.some.inj hn
      simp only [splitDevice, List.mem_cons, List.not_mem_nil, or_false] at htd
      rcases htd with rfl | rfl <;> exact ⟨_, rfl⟩) ["A"] (by decide) _ h splitDb[0] splitDb[1] List.mem_cons_self
    (List.mem_cons_of_mem _ List.mem_cons_self) (by decide) (68, 20) ((pairFor_iff _ _ _ _).1 (by decide))
    ((pairFor_iff _ _ _ _).1 (by decide)) splitDevice splitDevice List.mem_cons_self List.mem_cons_self (0, "A") (1, "B") splitNet
    splitNet [box 0 0 1 1 none] [box 40 0 41 1 none]
    ⟨List.mem_cons_self, rfl, _, List.mem_cons_self, rfl, rfl, List.mem_cons_self⟩
    ⟨List.mem_cons_of_mem _ List.mem_cons_self, rfl, _, List.mem_cons_of_mem _ List.mem_cons_self, rfl, rfl, List.mem_cons_self⟩
  exact ⟨q, r, h, h1, h2⟩

end Verif.RRequest
