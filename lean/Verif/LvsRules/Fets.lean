import Mathlib.Tactic.Tauto
import Verif.LvsRules.Check
import Verif.LvsRules.Sky130ADevices
import Verif.LvsRules.Sg13g2Devices

/-!
# Which drawn shapes LVS takes for a transistor
-/

namespace Verif.LvsRules

/-! ### Specification -/

/-- How a transistor is drawn: at every place of its gate, of every entry of `on` one layer is drawn (as layer and datatype),
and none of `off` is. Places with the same drawing that are marked as radio frequency transistors have another model, so
`models` may list two. -/
structure Fet where
  models : List String
  on : List (List (Nat × Nat))
  off : List (Nat × Nat)

/-- The layout is drawn at the place as the transistor asks for. -/
def Fet.Drawn (f : Fet) (L : Layout) (c : Cell) : Prop :=
  (∀ a ∈ f.on, ∃ x ∈ a, L.drawn x.1 x.2 c) ∧ ∀ x ∈ f.off, ¬ L.drawn x.1 x.2 c

namespace Sky130A

/-- Layers of sky130A that no gate of a transistor may lie in: `poly_res`, `poly_cut`, `tap`, `rpm`, `npc`, `hvtr`. -/
def never : List (Nat × Nat) := [(66, 13), (66, 14), (65, 44), (86, 20), (95, 20), (18, 20)]

/-- As `never`, for the transistors that are no SONOS cells: also `tunm`, `uhv_mos` and `ldntm`. -/
def never' : List (Nat × Nat) := never ++ [(80, 20), (110, 14), (173, 0), (174, 0), (11, 44)]

/-- The transistors of sky130A. `poly` is 66/20, `diff` 65/20, `nsdm` 93/44, `psdm` 94/20, `nwell` 64/20; `hvi` 75/20 marks thick
oxide, `lvtn` 125/44 a low and `hvtp` 78/44 a high threshold, `areaid_le` 81/60 a 3 V native transistor. -/
def fets : List Fet := [
  ⟨["sky130_fd_pr__pfet_01v8"], [[(66, 20)], [(65, 20)], [(94, 20)], [(64, 20)]],
    never' ++ [(93, 44), (75, 20), (125, 44), (78, 44), (81, 60), (74, 22), (19, 44), (124, 20), (81, 57), (81, 58), (92, 44), (81, 2)]⟩,
  ⟨["sky130_fd_pr__pfet_01v8_lvt"], [[(66, 20)], [(65, 20)], [(94, 20)], [(64, 20)], [(125, 44)]],
    never' ++ [(93, 44), (75, 20), (78, 44), (81, 60), (74, 22), (19, 44), (124, 20), (81, 57), (81, 58), (92, 44), (81, 2)]⟩,
  ⟨["sky130_fd_pr__pfet_01v8_hvt"], [[(66, 20)], [(65, 20)], [(94, 20)], [(64, 20)], [(78, 44)]],
    never' ++ [(93, 44), (75, 20), (125, 44), (81, 60), (74, 22), (19, 44), (124, 20), (81, 57), (81, 58), (92, 44), (81, 2)]⟩,
  ⟨["sky130_fd_pr__pfet_g5v0d10v5"], [[(66, 20)], [(65, 20)], [(94, 20)], [(64, 20)], [(75, 20)]],
    never' ++ [(93, 44), (125, 44), (78, 44), (81, 60), (81, 57), (81, 58), (81, 2)]⟩,
  ⟨["sky130_fd_pr__nfet_01v8"], [[(66, 20)], [(65, 20)], [(93, 44)]],
    never' ++ [(94, 20), (64, 20), (75, 20), (125, 44), (78, 44), (74, 22), (19, 44), (124, 20), (81, 57), (81, 58), (92, 44), (81, 2)]⟩,
  ⟨["sky130_fd_pr__nfet_01v8_lvt"], [[(66, 20)], [(65, 20)], [(93, 44)], [(125, 44)]],
    never' ++ [(94, 20), (64, 20), (75, 20), (78, 44), (74, 22), (19, 44), (124, 20), (81, 57), (81, 58), (92, 44), (81, 2)]⟩,
  ⟨["sky130_fd_pr__nfet_03v3_nvt"], [[(66, 20)], [(65, 20)], [(93, 44)], [(75, 20)], [(125, 44)], [(81, 60)]],
    never' ++ [(94, 20), (64, 20), (78, 44), (74, 22), (19, 44), (124, 20), (92, 44), (81, 2), (81, 19)]⟩,
  ⟨["sky130_fd_pr__nfet_05v0_nvt"], [[(66, 20)], [(65, 20)], [(93, 44)], [(75, 20)], [(125, 44)]],
    never' ++ [(94, 20), (64, 20), (78, 44), (81, 60), (74, 22), (19, 44), (124, 20), (92, 44), (81, 2), (81, 19)]⟩,
  ⟨["sky130_fd_pr__nfet_g5v0d10v5"], [[(66, 20)], [(65, 20)], [(93, 44)], [(75, 20)]],
    never' ++ [(94, 20), (64, 20), (125, 44), (78, 44), (74, 22), (19, 44), (124, 20), (81, 57), (81, 58), (92, 44), (81, 2)]⟩,
  ⟨["sky130_fd_bs_flash__special_sonosfet_star"],
    [[(66, 20)], [(65, 20)], [(93, 44)], [(125, 44)], [(64, 18)], [(80, 20)], [(11, 44)]],
    never ++ [(94, 20), (64, 20), (65, 13), (65, 14), (19, 44), (124, 20), (78, 44), (92, 44), (75, 20)]⟩]

/-- The selections of whole polygons among the gates of sky130A: of gates at `poly_model`, at the marker of a VPP capacitor,
and of SONOS cells outside the core. -/
def gateSelections : List String := ["pgate_low_voltage.not_interacting(poly_model)",
  "ngate_low_voltage.not_interacting(poly_model)", "ngate_nvt.not(areaid_le).not_interacting(vpp)",
  "sonos_ngate.and(lvtn).and(dnwell).and(tunm).and(ldntm).interacting(areaid_ce)"]

end Sky130A

namespace Sg13g2

/-- Layers of sg13g2 that no gate of a transistor may lie in: `nodrc`, `polyres`, `res`, `pwell_block`, `nsd` and `trans`. -/
def never : List (Nat × Nat) := [(62, 0), (128, 0), (24, 0), (46, 21), (7, 0), (26, 0)]

/-- The transistors of sg13g2. `activ` is 1/0 or its filler 1/22, `gatpoly` 5/0 or 5/22, `psd` 14/0, `nsd_block` 7/21, `nwell` 31/0,
and `thickgateox` 44/0. -/
def fets : List Fet := [
  ⟨["sg13_lv_nmos", "rfnmos"], [[(1, 0), (1, 22)], [(5, 0), (5, 22)]], never ++ [(14, 0), (7, 21), (31, 0), (44, 0)]⟩,
  ⟨["sg13_hv_nmos", "rfnmoshv"], [[(1, 0), (1, 22)], [(5, 0), (5, 22)], [(44, 0)]], never ++ [(14, 0), (7, 21), (31, 0)]⟩,
  ⟨["sg13_lv_pmos", "rfpmos"], [[(1, 0), (1, 22)], [(5, 0), (5, 22)], [(14, 0)], [(31, 0)]], never ++ [(44, 0)]⟩,
  ⟨["sg13_hv_pmos", "rfpmoshv"], [[(1, 0), (1, 22)], [(5, 0), (5, 22)], [(14, 0)], [(31, 0)], [(44, 0)]], never⟩]

end Sg13g2

/-- The gates of the device are at the place. -/
def DeviceRule.GateAt (d : DeviceRule) (L : Layout) (c : Cell) : Prop := ∃ e, d.layer ["G"] = some e ∧ holds L e c

/-! ### Proofs -/

/-- Rewrites the layers and the drawings to statements about drawn shapes. -/
syntax "layers_simp" : tactic

theorem exists_cons {α} {p : α → Prop} {a : α} {l : List α} : (∃ x ∈ a :: l, p x) ↔ p a ∨ ∃ x ∈ l, p x := by simp

macro_rules
  | `(tactic| layers_simp) => `(tactic| simp only [holds, Fet.Drawn, List.forall_mem_cons, exists_cons, List.cons_append, List.nil_append, List.not_mem_nil, false_imp_iff, implies_true, false_and, exists_false, or_false, and_true, Sky130A.never, Sky130A.never', Sg13g2.never,
  Sky130A.pgate_1p8v, Sky130A.pgate_low_voltage_not_pass, Sky130A.pgate_low_voltage, Sky130A.pgate, Sky130A.psdm,
  Sky130A.tgate, Sky130A.poly, Sky130A.diff, Sky130A.poly_res, Sky130A.poly_cut, Sky130A.tap, Sky130A.tunm, Sky130A.rpm,
  Sky130A.npc, Sky130A.hvtr, Sky130A.uhv_mos_1, Sky130A.uhv_mos_2, Sky130A.uhv_mos_3, Sky130A.nwell, Sky130A.ldntm,
  Sky130A.nsdm, Sky130A.areaid_le, Sky130A.hvi, Sky130A.uhvi, Sky130A.pwbm, Sky130A.pwde, Sky130A.areaid_en,
  Sky130A.areaid_en20, Sky130A.ncm, Sky130A.areaid_ce, Sky130A.hvtp, Sky130A.lvtn, Sky130A.pgate_1p8v_lvt,
  Sky130A.pgate_1p8v_hvt, Sky130A.pgate_5p0v_hv, Sky130A.pgate_high_voltage, Sky130A.ngate_1p8v,
  Sky130A.ngate_low_voltage_not_pass, Sky130A.ngate_low_voltage, Sky130A.ngate, Sky130A.ngate_1p8v_lvt,
  Sky130A.ngate_3p0v_nvt, Sky130A.ngate_nvt, Sky130A.ngate_high_voltage, Sky130A.areaid_ed, Sky130A.ngate_5p0v_nvt,
  Sky130A.ngate_5p0v_hv, Sky130A.sonos_gate, Sky130A.sonos_ngate, Sky130A.sonos_tgate, Sky130A.sonos_exclude,
  Sky130A.diff_res, Sky130A.diff_cut, Sky130A.dnwell,
  Sg13g2.ngate_lv, Sg13g2.ngate_lv_base, Sg13g2.ngate, Sg13g2.nactiv, Sg13g2.activ, Sg13g2.activ_drw_2, Sg13g2.activ_drw,
  Sg13g2.nodrc_drw, Sg13g2.activ_filler_2, Sg13g2.activ_filler, Sg13g2.psd_drw_2, Sg13g2.psd_drw, Sg13g2.nsd_block_2,
  Sg13g2.nsd_block, Sg13g2.tgate, Sg13g2.gatpoly, Sg13g2.gatpoly_drw_2, Sg13g2.gatpoly_drw, Sg13g2.gatpoly_filler_2,
  Sg13g2.gatpoly_filler, Sg13g2.res_mk, Sg13g2.polyres_drw_2, Sg13g2.polyres_drw, Sg13g2.res_drw_2, Sg13g2.res_drw,
  Sg13g2.thickgateox_drw_2, Sg13g2.thickgateox_drw, Sg13g2.nmos_exc, Sg13g2.rfnmos_exc, Sg13g2.nwell_drw_2,
  Sg13g2.nwell_drw, Sg13g2.mos_exclude, Sg13g2.pwell_block_2, Sg13g2.pwell_block, Sg13g2.nsd_drw_2, Sg13g2.nsd_drw,
  Sg13g2.trans_drw_2, Sg13g2.trans_drw, Sg13g2.rfnmos_mk, Sg13g2.rfnmos_mk_gen, Sg13g2.ptap, Sg13g2.pactiv, Sg13g2.pwell,
  Sg13g2.pwell_allowed, Sg13g2.digisub_gap, Sg13g2.digisub_drw_2, Sg13g2.digisub_drw, Sg13g2.ptap1_mk,
  Sg13g2.substrate_drw_2, Sg13g2.substrate_drw, Sg13g2.recog_diode_2, Sg13g2.recog_diode, Sg13g2.ptap_holes,
  Sg13g2.ngate_hv, Sg13g2.ngate_hv_base, Sg13g2.nmoshv_exc, Sg13g2.rfnmoshv_mk, Sg13g2.pgate_lv, Sg13g2.pgate_lv_base,
  Sg13g2.pgate, Sg13g2.pmos_exc, Sg13g2.rfpmos_exc, Sg13g2.nwell_holes, Sg13g2.rfpmos_mk, Sg13g2.rfpmos_mk_gen,
  Sg13g2.ntap, Sg13g2.ntap1_mk, Sg13g2.ntap_holes, Sg13g2.pgate_hv, Sg13g2.pgate_hv_base, Sg13g2.pmoshv_exc,
  Sg13g2.rfpmoshv_mk, Sg13g2.rfngate_lv, Sg13g2.rfngate_hv, Sg13g2.rfpgate_lv, Sg13g2.rfpgate_hv] at *)

theorem sky_fets : Sky130A.devices.filter (·.extractor == "mos4") = [Sky130A.device0, Sky130A.device1, Sky130A.device2,
    Sky130A.device3, Sky130A.device4, Sky130A.device5, Sky130A.device6, Sky130A.device7, Sky130A.device8,
    Sky130A.device106] := rfl

theorem sg_fets : Sg13g2.devices.filter (·.extractor == "mos4") = [Sg13g2.device0, Sg13g2.device1, Sg13g2.device2,
    Sg13g2.device3, Sg13g2.device4, Sg13g2.device5, Sg13g2.device6, Sg13g2.device7] := rfl

theorem mem_sky {d : DeviceRule} (h : d ∈ Sky130A.devices) (hm : d.extractor = "mos4") :
    d ∈ [Sky130A.device0, Sky130A.device1, Sky130A.device2,
    Sky130A.device3, Sky130A.device4, Sky130A.device5, Sky130A.device6, Sky130A.device7, Sky130A.device8,
    Sky130A.device106] := sky_fets ▸ List.mem_filter.2 ⟨h, by simp [hm]⟩

theorem mem_sg {d : DeviceRule} (h : d ∈ Sg13g2.devices) (hm : d.extractor = "mos4") :
    d ∈ [Sg13g2.device0, Sg13g2.device1, Sg13g2.device2, Sg13g2.device3, Sg13g2.device4, Sg13g2.device5, Sg13g2.device6,
    Sg13g2.device7] := sg_fets ▸ List.mem_filter.2 ⟨h, by simp [hm]⟩

/-- Where LVS of sky130A sees the gate of a transistor, the layout is drawn as for one transistor of its model. -/
theorem fet_drawn_sky {L : Layout} {c : Cell} {d : DeviceRule} (hd : d ∈ Sky130A.devices) (hm : d.extractor = "mos4")
    (h : d.GateAt L c) : ∃ f ∈ Sky130A.fets, d.model ∈ f.models ∧ f.Drawn L c := by
  obtain ⟨e, he, h⟩ := h
  have hd := mem_sky hd hm
  simp only [List.mem_cons, List.not_mem_nil, or_false] at hd
  rcases hd with rfl | rfl | rfl | rfl | rfl | rfl | rfl | rfl | rfl | rfl
  · obtain rfl := Option.some.inj he
    refine ⟨_, List.mem_of_getElem? (i := 0) rfl, by decide, ?_⟩
    clear he hm hd
    layers_simp
    grind
  · obtain rfl := Option.some.inj he
    refine ⟨_, List.mem_of_getElem? (i := 1) rfl, by decide, ?_⟩
    clear he hm hd
    layers_simp
    grind
  · obtain rfl := Option.some.inj he
    refine ⟨_, List.mem_of_getElem? (i := 2) rfl, by decide, ?_⟩
    clear he hm hd
    layers_simp
    grind
  · obtain rfl := Option.some.inj he
    refine ⟨_, List.mem_of_getElem? (i := 3) rfl, by decide, ?_⟩
    clear he hm hd
    layers_simp
    grind
  · obtain rfl := Option.some.inj he
    refine ⟨_, List.mem_of_getElem? (i := 4) rfl, by decide, ?_⟩
    clear he hm hd
    layers_simp
    grind
  · obtain rfl := Option.some.inj he
    refine ⟨_, List.mem_of_getElem? (i := 5) rfl, by decide, ?_⟩
    clear he hm hd
    layers_simp
    grind
  · obtain rfl := Option.some.inj he
    refine ⟨_, List.mem_of_getElem? (i := 6) rfl, by decide, ?_⟩
    clear he hm hd
    layers_simp
    grind
  · obtain rfl := Option.some.inj he
    refine ⟨_, List.mem_of_getElem? (i := 7) rfl, by decide, ?_⟩
    clear he hm hd
    layers_simp
    grind
  · obtain rfl := Option.some.inj he
    refine ⟨_, List.mem_of_getElem? (i := 8) rfl, by decide, ?_⟩
    clear he hm hd
    layers_simp
    grind
  · obtain rfl := Option.some.inj he
    refine ⟨_, List.mem_of_getElem? (i := 9) rfl, by decide, ?_⟩
    clear he hm hd
    layers_simp
    grind

/-- The same for sg13g2, inside of the chip and not at the border of `digisub`. -/
theorem fet_drawn_sg {L : Layout} {c : Cell} (hchip : L.other "CHIP" c)
    (hgap : L.drawn 60 0 c → L.other "digisub_drw.sized(-1.nm)" c) {d : DeviceRule} (hd : d ∈ Sg13g2.devices)
    (hm : d.extractor = "mos4") (h : d.GateAt L c) : ∃ f ∈ Sg13g2.fets, d.model ∈ f.models ∧ f.Drawn L c := by
  obtain ⟨e, he, h⟩ := h
  have hd := mem_sg hd hm
  simp only [List.mem_cons, List.not_mem_nil, or_false] at hd
  rcases hd with rfl | rfl | rfl | rfl | rfl | rfl | rfl | rfl
  · obtain rfl := Option.some.inj he
    refine ⟨_, List.mem_of_getElem? (i := 0) rfl, by decide, ?_⟩
    clear he hm hd
    layers_simp
    grind
  · obtain rfl := Option.some.inj he
    refine ⟨_, List.mem_of_getElem? (i := 1) rfl, by decide, ?_⟩
    clear he hm hd
    layers_simp
    grind
  · obtain rfl := Option.some.inj he
    refine ⟨_, List.mem_of_getElem? (i := 2) rfl, by decide, ?_⟩
    clear he hm hd
    layers_simp
    grind
  · obtain rfl := Option.some.inj he
    refine ⟨_, List.mem_of_getElem? (i := 3) rfl, by decide, ?_⟩
    clear he hm hd
    layers_simp
    grind
  · obtain rfl := Option.some.inj he
    refine ⟨_, List.mem_of_getElem? (i := 0) rfl, by decide, ?_⟩
    clear he hm hd
    layers_simp
    grind
  · obtain rfl := Option.some.inj he
    refine ⟨_, List.mem_of_getElem? (i := 1) rfl, by decide, ?_⟩
    clear he hm hd
    layers_simp
    grind
  · obtain rfl := Option.some.inj he
    refine ⟨_, List.mem_of_getElem? (i := 2) rfl, by decide, ?_⟩
    clear he hm hd
    layers_simp
    grind
  · obtain rfl := Option.some.inj he
    refine ⟨_, List.mem_of_getElem? (i := 3) rfl, by decide, ?_⟩
    clear he hm hd
    layers_simp
    grind

/-- Where the layout is drawn as for a transistor, LVS of sky130A sees the gate of a transistor of its model, unless one of
the selections drops it. -/
theorem fet_found_sky {L : Layout} {c : Cell} (hsel : ∀ n ∈ Sky130A.gateSelections, L.other n c) {f : Fet}
    (hf : f ∈ Sky130A.fets) (h : f.Drawn L c) :
    ∃ d ∈ Sky130A.devices, d.extractor = "mos4" ∧ d.model ∈ f.models ∧ d.GateAt L c := by
  simp only [Sky130A.gateSelections, List.forall_mem_cons] at hsel
  simp only [Sky130A.fets, List.mem_cons, List.not_mem_nil, or_false] at hf
  rcases hf with rfl | rfl | rfl | rfl | rfl | rfl | rfl | rfl | rfl | rfl
  · refine ⟨Sky130A.device0, List.mem_of_getElem? (i := 0) rfl, rfl, by decide, _, rfl, ?_⟩
    layers_simp
    grind
  · refine ⟨Sky130A.device1, List.mem_of_getElem? (i := 1) rfl, rfl, by decide, _, rfl, ?_⟩
    layers_simp
    grind
  · refine ⟨Sky130A.device2, List.mem_of_getElem? (i := 2) rfl, rfl, by decide, _, rfl, ?_⟩
    layers_simp
    grind
  · refine ⟨Sky130A.device3, List.mem_of_getElem? (i := 3) rfl, rfl, by decide, _, rfl, ?_⟩
    layers_simp
    grind
  · refine ⟨Sky130A.device4, List.mem_of_getElem? (i := 4) rfl, rfl, by decide, _, rfl, ?_⟩
    layers_simp
    grind
  · refine ⟨Sky130A.device5, List.mem_of_getElem? (i := 5) rfl, rfl, by decide, _, rfl, ?_⟩
    layers_simp
    grind
  · refine ⟨Sky130A.device6, List.mem_of_getElem? (i := 6) rfl, rfl, by decide, _, rfl, ?_⟩
    layers_simp
    grind
  · refine ⟨Sky130A.device7, List.mem_of_getElem? (i := 7) rfl, rfl, by decide, _, rfl, ?_⟩
    layers_simp
    grind
  · refine ⟨Sky130A.device8, List.mem_of_getElem? (i := 8) rfl, rfl, by decide, _, rfl, ?_⟩
    layers_simp
    grind
  · refine ⟨Sky130A.device106, List.mem_of_getElem? (i := 106) rfl, rfl, by decide, _, rfl, ?_⟩
    layers_simp
    grind

/-- The same for sg13g2. -/
theorem fet_found_sg {L : Layout} {c : Cell} {f : Fet} (hf : f ∈ Sg13g2.fets) (h : f.Drawn L c) :
    ∃ d ∈ Sg13g2.devices, d.extractor = "mos4" ∧ d.model ∈ f.models ∧ d.GateAt L c := by
  simp only [Sg13g2.fets, List.mem_cons, List.not_mem_nil, or_false] at hf
  rcases hf with rfl | rfl | rfl | rfl
  · by_cases hr : holds L Sg13g2.rfnmos_mk c
    · refine ⟨Sg13g2.device4, List.mem_of_getElem? (i := 4) rfl, rfl, by decide, _, rfl, ?_⟩
      layers_simp
      grind
    · refine ⟨Sg13g2.device0, List.mem_of_getElem? (i := 0) rfl, rfl, by decide, _, rfl, ?_⟩
      layers_simp
      grind
  · by_cases hr : holds L Sg13g2.rfnmoshv_mk c
    · refine ⟨Sg13g2.device5, List.mem_of_getElem? (i := 5) rfl, rfl, by decide, _, rfl, ?_⟩
      layers_simp
      grind
    · refine ⟨Sg13g2.device1, List.mem_of_getElem? (i := 1) rfl, rfl, by decide, _, rfl, ?_⟩
      layers_simp
      grind
  · by_cases hr : holds L Sg13g2.rfpmos_mk c
    · refine ⟨Sg13g2.device6, List.mem_of_getElem? (i := 6) rfl, rfl, by decide, _, rfl, ?_⟩
      layers_simp
      grind
    · refine ⟨Sg13g2.device2, List.mem_of_getElem? (i := 2) rfl, rfl, by decide, _, rfl, ?_⟩
      layers_simp
      grind
  · by_cases hr : holds L Sg13g2.rfpmoshv_mk c
    · refine ⟨Sg13g2.device7, List.mem_of_getElem? (i := 7) rfl, rfl, by decide, _, rfl, ?_⟩
      layers_simp
      grind
    · refine ⟨Sg13g2.device3, List.mem_of_getElem? (i := 3) rfl, rfl, by decide, _, rfl, ?_⟩
      layers_simp
      grind

/-- The gates of two of the devices are at no place together, unless they have the same model. -/
def gatesApart (ds : List DeviceRule) : Bool := ds.all fun d => ds.all fun d' => d.model == d'.model ||
  match d.layer ["G"], d'.layer ["G"] with
  | some e, some e' => contradictory (present e ++ present e')
  | _, _ => true

theorem gatesApart_sound {ds : List DeviceRule} (h : gatesApart ds = true) {d d' : DeviceRule} (hd : d ∈ ds) (hd' : d' ∈ ds)
    {L : Layout} {c : Cell} (hg : d.GateAt L c) (hg' : d'.GateAt L c) : d.model = d'.model := by
  obtain ⟨e, he, hg⟩ := hg
  obtain ⟨e', he', hg'⟩ := hg'
  have := List.all_eq_true.1 (List.all_eq_true.1 h d hd) d' hd'
  rw [he, he', Bool.or_eq_true] at this
  exact this.elim eq_of_beq fun this =>
    (contradictory_sound ((present_sound _ hg).append (present_sound _ hg')) this).elim

/-- At one place there is at most one model of transistor. -/
theorem one_fet_sky {L : Layout} {c : Cell} {d d' : DeviceRule} (hd : d ∈ Sky130A.devices) (hm : d.extractor = "mos4")
    (hd' : d' ∈ Sky130A.devices) (hm' : d'.extractor = "mos4") (hg : d.GateAt L c) (hg' : d'.GateAt L c) :
    d.model = d'.model :=
  gatesApart_sound (by decide +kernel) (mem_sky hd hm) (mem_sky hd' hm') hg hg'

/-- The same for sg13g2. -/
theorem one_fet_sg {L : Layout} {c : Cell} {d d' : DeviceRule} (hd : d ∈ Sg13g2.devices) (hm : d.extractor = "mos4")
    (hd' : d' ∈ Sg13g2.devices) (hm' : d'.extractor = "mos4") (hg : d.GateAt L c) (hg' : d'.GateAt L c) :
    d.model = d'.model :=
  gatesApart_sound (by decide +kernel) (mem_sg hd hm) (mem_sg hd' hm') hg hg'

/-- A low threshold n channel transistor of sky130A and a thick oxide p channel transistor of sg13g2, drawn at one place each,
meet the tables and are recognised. -/
theorem fets_ex :
    (∃ (L : Layout) (c : Cell), L.drawn 125 44 c ∧ (∃ f ∈ Sky130A.fets, "sky130_fd_pr__nfet_01v8_lvt" ∈ f.models ∧ f.Drawn L c) ∧
      (∀ n ∈ Sky130A.gateSelections, L.other n c) ∧
      ∃ d ∈ Sky130A.devices, d.extractor = "mos4" ∧ d.model = "sky130_fd_pr__nfet_01v8_lvt" ∧ d.GateAt L c) ∧
    ∃ (L : Layout) (c : Cell), L.drawn 44 0 c ∧ L.other "CHIP" c ∧ (L.drawn 60 0 c → L.other "digisub_drw.sized(-1.nm)" c) ∧
      (∃ f ∈ Sg13g2.fets, "sg13_hv_pmos" ∈ f.models ∧ f.Drawn L c) ∧
      ∃ d ∈ Sg13g2.devices, d.extractor = "mos4" ∧ d.model = "sg13_hv_pmos" ∧ d.GateAt L c := by
  constructor
  · have hD : (⟨["sky130_fd_pr__nfet_01v8_lvt"], [[(66, 20)], [(65, 20)], [(93, 44)], [(125, 44)]],
        Sky130A.never' ++ [(94, 20), (64, 20), (75, 20), (78, 44), (74, 22), (19, 44), (124, 20), (81, 57), (81, 58), (92, 44),
          (81, 2)]⟩ : Fet).Drawn ⟨fun l t _ => (l, t) ∈ [(66, 20), (65, 20), (93, 44), (125, 44)], fun _ _ _ => False,
        fun _ _ => True⟩ (0, 0) := by
      unfold Fet.Drawn
      decide
    refine ⟨_, (0, 0), by decide, ⟨_, List.mem_of_getElem? (i := 5) rfl, by decide, hD⟩, fun _ _ => trivial, ?_⟩
    obtain ⟨d, hd, hm, hk, hg⟩ := fet_found_sky (fun _ _ => trivial) (List.mem_of_getElem? (i := 5) rfl) hD
    exact ⟨d, hd, hm, List.mem_singleton.1 hk, hg⟩
  · refine ⟨⟨fun l t _ => (l, t) ∈ [(1, 0), (5, 0), (14, 0), (31, 0), (44, 0)], fun _ _ _ => False,
        fun n _ => n = "CHIP"⟩, (0, 0), by decide, rfl, by decide, ⟨_, List.mem_of_getElem? (i := 3) rfl, by decide, ?_⟩,
        Sg13g2.device3, List.mem_of_getElem? (i := 3) rfl, rfl, rfl, _, rfl, ?_⟩
    · unfold Fet.Drawn
      decide
    · layers_simp
      simp

end Verif.LvsRules
