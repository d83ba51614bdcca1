import Verif.Pdk.Res
import Verif.RRequest.Full

/-!
# The whole request for the resistor extractor with the shipped technologies (C88)
-/

namespace Verif.Pdk

open TechInfo (Tech GDSPair computedByPair computedByName IsLast)
open Lvs (DbLayer DbDevice Env ExtractedLayer Source Known KnownPair LeftOut prepare)
open RRequest

set_option maxRecDepth 4000

theorem knownPair_of {t : Tech} {c : TechInfo.ComputedLayer} (hc : c ∈ t.computed) : ∃ c', KnownPair t c.info.drw c' := by
  cases hg : (computedByPair t).get? c.info.drw with
  | some c' => exact ⟨c', (Lvs.pair_known t _ _).1 hg⟩
  | none =>
    unfold computedByPair at hg
    exact absurd rfl ((TechInfo.ofList_map_none _ _ _ _).1 hg c hc)

theorem pin_names {t : Technology} (h : Shipped t) : ∀ lay ∈ t.read.layers, ∀ c ∈ t.read.computed, ∀ c' ∈ t.read.computed,
    c.info.drw = lay.pin → c'.info.drw = lay.pin → c.info.name = c'.info.name := by
  rcases h with rfl | rfl <;> decide +kernel

/-- **C88, the whole request.** With a shipped technology, the request for the resistor extractor can be prepared if the layers
of the LVS database have different names, there are no shapes on layers that the technology takes for labels, all shapes
belong to nets, and all terminals of the devices are connected and on layers of the technology that are not left out. -/
theorem shipped_request_partial {t : Technology} (ht : Shipped t) (bb : Bool) (db : List DbLayer)
    (hd : (db.map (·.index)).Nodup) (hnames : (db.map (·.name)).Nodup)
    (hlabel : ∀ l ∈ db, l.shapes ≠ [] → ¬ NamesLabel t l.name)
    (hnet : ∀ l ∈ db, ∀ p ∈ l.shapes, p.net ≠ none) (ds : List DbDevice)
    (hdev : ∀ d ∈ ds, ∀ td ∈ d.terminals, ∃ n, d.netFor td.1 = some n ∧
      ∀ nt ∈ n.terminals, nt.device = d.name → nt.terminal = td.1 → ∀ e ∈ nt.shapes, ∃ l ∈ db, l.index = e.1 ∧
        ∃ c, Known t.read l.name c ∧ (bb = true → c.kind ≠ .deviceResistor ∧ c.kind ≠ .deviceCapacitor))
    (v : Env) (cfg : Config) (skipEmpty : Bool) (nets : List String) :
    ∃ q, prepareRequest (prepare t.read bb db) v cfg skipEmpty ds (some nets) = .ok q := by
  rw [request_ok_iff _ _ _ hd, ← tech_ok_iff t.read bb db hd v cfg, shipped_resistors_iff ht bb db hd]
  refine ⟨hlabel, fun d hdm td htd => ?_, fun s hs gp lay hdr hlay => ⟨?_, ?_⟩, nofun⟩
  · obtain ⟨n, hn, h⟩ := hdev d hdm td htd
    refine ⟨n, hn, fun nt h1 h2 h3 e he => ?_⟩
    obtain ⟨l, hl, hi, c, hk, hbb⟩ := h nt h1 h2 h3 e he
    obtain ⟨c', hc'⟩ := knownPair_of hk.mem
    exact ⟨l, hl, hi, _, c', Or.inl ⟨c, hk, fun hl => hl.2.elim (hbb hl.1).1 (hbb hl.1).2, rfl⟩, hc'⟩
  · rintro s₁ s₂ ⟨l, c, hi, hne, hk, hlo, e⟩ ⟨l', c', hi', hne', hk', hlo', e'⟩ hp hp'
    have h1 : c.info.drw = lay.pin := (congrArg ExtractedLayer.pair e).symm.trans hp
    have h2 : c'.info.drw = lay.pin := (congrArg ExtractedLayer.pair e').symm.trans hp'
    have hn := pin_names ht lay hlay.mem c hk.mem c' hk'.mem h1 h2
    rw [hk.prop, hk'.prop] at hn
    have hidx : s₁.idx = s₂.idx := by
      obtain ⟨b1, g1⟩ := List.getElem?_eq_some_iff.1 hi
      obtain ⟨b2, g2⟩ := List.getElem?_eq_some_iff.1 hi'
      refine (List.Nodup.getElem_inj_iff hnames (hi := by rw [List.length_map]; exact b1)
        (hj := by rw [List.length_map]; exact b2)).1 ?_
      rw [List.getElem_map, List.getElem_map, g1, g2]
      exact hn
    rw [hidx] at hi
    obtain rfl := Option.some.inj (hi.symm.trans hi')
    rw [e, e', hidx, h1, h2]
  · rintro s' ⟨l, c, hi, hne, hk, hlo, e⟩ hp label hlab P₁ q P₂ hsh - -
    refine hnet l (List.mem_of_getElem? hi) q ?_
    have : s'.shapes = l.shapes := congrArg ExtractedLayer.shapes e
    rw [← this, hsh]
    exact List.mem_append_right _ List.mem_cons_self

/-- **C88 fails for blackboxed devices.** If a terminal of a device is on a device layer of the technology, the resistor
extraction with blackboxed devices ends with an error. -/
theorem blackbox_fails {t : Tech} {db : List DbLayer} (hd : (db.map (·.index)).Nodup) {ds : List DbDevice} {d : DbDevice}
    (hds : d ∈ ds) {td : Nat × String} (htd : td ∈ d.terminals) {n : Lvs.Net} (hn : d.netFor td.1 = some n)
    {nt : Lvs.TermRef} (hnt : nt ∈ n.terminals) (h1 : nt.device = d.name) (h2 : nt.terminal = td.1)
    {e : Nat × List Shapes.Polygon} (he : e ∈ nt.shapes) {l : DbLayer} (hl : l ∈ db) (hi : l.index = e.1)
    {c : TechInfo.ComputedLayer} (hk : Known t l.name c) (hkind : c.kind = .deviceResistor ∨ c.kind = .deviceCapacitor)
    (v : Env) (cfg : Config) (skipEmpty : Bool) (nets : Option (List String)) :
    ∃ m, prepareRequest (prepare t true db) v cfg skipEmpty ds nets = .error m := by
  cases hq : prepareRequest (prepare t true db) v cfg skipEmpty ds nets with
  | error m => exact ⟨m, rfl⟩
  | ok q =>
    obtain ⟨_, hdv, _⟩ := (request_ok_iff t true db hd v cfg skipEmpty ds nets).1 ⟨q, hq⟩
    obtain ⟨n', hn', h⟩ := hdv d hds td htd
    rw [hn] at hn'
    cases hn'
    obtain ⟨l', hl', hi', p, c', hm, _⟩ := h nt hnt h1 h2 e he
    have : l' = l := by
      have := List.inj_on_of_nodup_map hd hl' hl (hi'.trans hi.symm)
      exact this
    subst this
    rcases hm with ⟨c'', hk'', hlo, _⟩ | ⟨hno, _⟩
    · exact absurd ⟨rfl, Lvs.isLast_unique hk'' hk ▸ hkind⟩ hlo
    · exact absurd hk.prop (hno c hk.mem)

/-! ### Example: a MIM capacitor in sky130A, sky130.lvs 2245 -/

/-- The plates of a MIM capacitor. -/
def mimDb : List DbLayer :=
  [⟨3, "met3_cap", none, [Lvs.box 0 0 500 500 (some "A")]⟩, ⟨4, "capm", none, [Lvs.box 50 50 450 450 (some "B")]⟩,
   ⟨5, "via3_cap", none, [Lvs.box 100 100 120 120 (some "B")]⟩, ⟨6, "met4_ncap", none, [Lvs.box 90 90 900 200 (some "B")]⟩]

/-- The net of the lower plate. -/
def mimNetA : Lvs.Net := ⟨"A", [⟨"C1", 0, [(3, [Lvs.box 0 0 500 500 none])]⟩]⟩

/-- The net of the upper plate. -/
def mimNetB : Lvs.Net := ⟨"B", [⟨"C1", 1, [(4, [Lvs.box 50 50 450 450 none])]⟩]⟩

/-- The device. -/
def mimDevice : DbDevice := ⟨1, "C1", "sky130_fd_pr__model__cap_mim", "D$cap_mim", [(0, "C", 0.32)], [(0, "A"), (1, "B")],
  fun i => if i = 0 then some mimNetA else if i = 1 then some mimNetB else none⟩

/-- Without blackboxed devices the request can be prepared. -/
example : ∃ q, prepareRequest (prepare Sky130A.tech.read false mimDb) exLayers RRequest.exCfg true [mimDevice]
    (some ["A", "B"]) = .ok q := by
  refine shipped_request_partial (Or.inl rfl) false mimDb (by decide) (by decide) ?_ (by decide) [mimDevice] ?_ exLayers
    RRequest.exCfg true ["A", "B"]
  · intro l hl _
    rw [namesLabel_iff]
    revert l
    decide +kernel
  · intro d hd td htd
    obtain rfl := List.mem_singleton.1 hd
    rcases List.mem_cons.1 htd with rfl | htd
    · refine ⟨mimNetA, rfl, fun nt h _ _ e he => ?_⟩
      obtain rfl := List.mem_singleton.1 h
      obtain rfl := List.mem_singleton.1 he
      exact ⟨⟨3, "met3_cap", none, _⟩, List.mem_cons_self, rfl, _, ((TechInfo.single_lookups _).1 _ _).1 rfl, nofun⟩
    · obtain rfl := List.mem_singleton.1 htd
      refine ⟨mimNetB, rfl, fun nt h _ _ e he => ?_⟩
      obtain rfl := List.mem_singleton.1 h
      obtain rfl := List.mem_singleton.1 he
      exact ⟨⟨4, "capm", none, _⟩, List.mem_cons_of_mem _ List.mem_cons_self, rfl, _,
        ((TechInfo.single_lookups _).1 _ _).1 rfl, nofun⟩

/-- **C88 fails.** With blackboxed devices the request for the same layout cannot be prepared. -/
theorem mim_blackbox_fails (v : Env) (cfg : Config) (skipEmpty : Bool) (nets : Option (List String)) :
    ∃ m, prepareRequest (prepare Sky130A.tech.read true mimDb) v cfg skipEmpty [mimDevice] nets = .error m :=
  blackbox_fails (d := mimDevice) (td := (0, "A")) (n := mimNetA) (nt := ⟨"C1", 0, [(3, [Lvs.box 0 0 500 500 none])]⟩)
    (e := (3, [Lvs.box 0 0 500 500 none])) (l := ⟨3, "met3_cap", none, [Lvs.box 0 0 500 500 (some "A")]⟩)
    (by decide) List.mem_cons_self List.mem_cons_self rfl List.mem_cons_self rfl rfl List.mem_cons_self List.mem_cons_self rfl
    (((TechInfo.single_lookups _).1 _ _).1 rfl) (Or.inr rfl) v cfg skipEmpty nets

end Verif.Pdk
