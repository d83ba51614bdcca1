import Mathlib.Tactic.SplitIfs
import Verif.LvsRules.Fets

/-!
# The terminals of devices in LVS
-/

namespace Verif.LvsRules

/-! ### Specification -/

/-- The roles of the terminals of a device, by the extractor: the terminal is put on the layer of the first of the roles that is
given. -/
def terminals : String → List (List String)
  | "mos4" => [["tS", "SD"], ["tD", "SD"], ["tG", "G"], ["tB", "tW", "W"]]
  | "diode" => [["tA", "P"], ["tC", "N"]]
  | "bjt3" => [["tC", "C"], ["tB", "B"], ["tE", "E"]]
  | "bjt4" => [["tC", "C"], ["tB", "B"], ["tE", "E"], ["tS", "S"]]
  | "resistor" => [["tA", "C"], ["tB", "C"]]
  | "resistor_with_bulk" => [["tA", "C"], ["tB", "C"], ["tW", "W"]]
  | "capacitor" => [["tA", "P1"], ["tB", "P2"]]
  | "capacitor_with_bulk" => [["tA", "P1"], ["tB", "P2"], ["tW", "W"]]
  | "FixBJT4Transistor" => [["tC"], ["tB"], ["tE"], ["tS"]]
  | "GeneralNTerminalExtractor" => [["ports"]]
  | "MIMCAPExtractor" => [["top_mim"], ["btm_mim"]]
  | "VPP3Extractor" => [["C"], ["B"]]
  | "VPP4Extractor" => [["C1"], ["C2"], ["B"]]
  | "VPP3NHVExtractor" => [["tA"], ["tB"], ["tW"]]
  | _ => []

/-- The terminal can be at the place. -/
def DeviceRule.TerminalAt (d : DeviceRule) (roles : List String) (L : Layout) (c : Cell) : Prop :=
  ∃ e, d.layer roles = some e ∧ holds L e c

/-- The layers are joined by a chain of `connect` statements. -/
inductive Reaches (s : Script) : String → String → Prop
  | refl (a) : Reaches s a a
  | there {a b c} : (a, b) ∈ s.connects → Reaches s b c → Reaches s a c
  | back {a b c} : (b, a) ∈ s.connects → Reaches s b c → Reaches s a c

/-- The devices of a script, and the layer of its first metal. -/
inductive DevicesOf : Script → List DeviceRule → String → Prop
  | sky130A : DevicesOf Sky130A.script Sky130A.devices "met1_con"
  | sg13g2 : DevicesOf Sg13g2.script Sg13g2.devices "metal1_con"

/-- The p channel transistors of sky130A. -/
def Sky130A.pFets : List String := [
    "sky130_fd_pr__pfet_01v8", "sky130_fd_pr__pfet_01v8_lvt", "sky130_fd_pr__pfet_01v8_hvt",
    "sky130_fd_pr__pfet_g5v0d10v5"]
/-- The n channel transistors of sky130A. -/
def Sky130A.nFets : List String := [
    "sky130_fd_pr__nfet_01v8", "sky130_fd_pr__nfet_01v8_lvt", "sky130_fd_pr__nfet_03v3_nvt",
    "sky130_fd_pr__nfet_05v0_nvt", "sky130_fd_pr__nfet_g5v0d10v5", "sky130_fd_bs_flash__special_sonosfet_star"]
/-- The p channel transistors of sg13g2. -/
def Sg13g2.pFets : List String := ["sg13_lv_pmos", "sg13_hv_pmos", "rfpmos", "rfpmoshv"]
/-- The n channel transistors of sg13g2. -/
def Sg13g2.nFets : List String := ["sg13_lv_nmos", "sg13_hv_nmos", "rfnmos", "rfnmoshv"]

/-! ### Proofs -/

/-- Rewrites the terminal layers to statements about drawn shapes. -/
syntax "terminals_simp" : tactic

macro_rules
  | `(tactic| terminals_simp) => `(tactic| simp only [holds,
    Sky130A.psd, Sky130A.psdm, Sky130A.sd, Sky130A.diff, Sky130A.poly, Sky130A.diff_res, Sky130A.diff_cut, Sky130A.tap,
    Sky130A.areaid_po, Sky130A.npnid, Sky130A.pnpid, Sky130A.areaid_de, Sky130A.uhv_mos_1, Sky130A.uhv_mos_2,
    Sky130A.uhv_mos_3, Sky130A.nwell, Sky130A.nsd, Sky130A.nsdm, Sky130A.sonos_nsd, Sky130A.poly_con, Sky130A.poly_res,
    Sky130A.vpp, Sky130A.sub, Sky130A.ndiode_terminal_n, Sky130A.ncomp, Sky130A.hvtp, Sky130A.ndiode_terminal_p,
    Sky130A.ptap_conn, Sky130A.pdiode_terminal_n, Sky130A.pcomp, Sky130A.pdiode_terminal_p,
    Sg13g2.nsd_fet, Sg13g2.nactiv, Sg13g2.activ, Sg13g2.activ_drw_2, Sg13g2.activ_drw, Sg13g2.nodrc_drw,
    Sg13g2.activ_filler_2, Sg13g2.activ_filler, Sg13g2.psd_drw_2, Sg13g2.psd_drw, Sg13g2.nsd_block_2, Sg13g2.nsd_block,
    Sg13g2.nwell_drw_2, Sg13g2.nwell_drw, Sg13g2.ngate, Sg13g2.tgate, Sg13g2.gatpoly, Sg13g2.gatpoly_drw_2,
    Sg13g2.gatpoly_drw, Sg13g2.gatpoly_filler_2, Sg13g2.gatpoly_filler, Sg13g2.res_mk, Sg13g2.polyres_drw_2,
    Sg13g2.polyres_drw, Sg13g2.res_drw_2, Sg13g2.res_drw, Sg13g2.psd_fet, Sg13g2.pactiv, Sg13g2.pgate, Sg13g2.poly_con,
    Sg13g2.pwell, Sg13g2.pwell_allowed, Sg13g2.pwell_block_2, Sg13g2.pwell_block, Sg13g2.digisub_gap,
    Sg13g2.digisub_drw_2, Sg13g2.digisub_drw, Sg13g2.ptap, Sg13g2.ptap1_mk, Sg13g2.substrate_drw_2, Sg13g2.substrate_drw,
    Sg13g2.recog_diode_2, Sg13g2.recog_diode, Sg13g2.ntap, Sg13g2.ntap1_mk, Sg13g2.dantenna_n, Sg13g2.antenna_d_mk,
    Sg13g2.antenna_d_exc, Sg13g2.salblock_drw_2, Sg13g2.salblock_drw, Sg13g2.dantenna_p, Sg13g2.dpantenna_n,
    Sg13g2.dpantenna_p] at *)

/-- Source and drain of a p channel transistor of sky130A lie on `diff` in `psdm` and in the n well, outside of `poly`. -/
theorem p_source_sky {L : Layout} {c : Cell} {d : DeviceRule} (hd : d ∈ Sky130A.devices) (hm : d.extractor = "mos4")
    (hk : d.model ∈ Sky130A.pFets) (h : d.TerminalAt ["tS", "SD"] L c ∨ d.TerminalAt ["tD", "SD"] L c) :
    L.drawn 65 20 c ∧ L.drawn 94 20 c ∧ L.drawn 64 20 c ∧ ¬ L.drawn 66 20 c := by
  have hd := mem_sky hd hm
  simp only [List.mem_cons, List.not_mem_nil, or_false] at hd
  rcases hd with rfl | rfl | rfl | rfl | rfl | rfl | rfl | rfl | rfl | rfl <;>
    first
    | exact absurd hk (by decide)
    | (clear hm hk; rcases h with h | h <;> obtain ⟨e, he, h⟩ := h <;> obtain rfl := Option.some.inj he <;> clear he <;>
        terminals_simp <;> grind)

/-- Source and drain of an n channel transistor of sky130A lie on `diff` in `nsdm`, outside of the n well and of `poly`. -/
theorem n_source_sky {L : Layout} {c : Cell} {d : DeviceRule} (hd : d ∈ Sky130A.devices) (hm : d.extractor = "mos4")
    (hk : d.model ∈ Sky130A.nFets) (h : d.TerminalAt ["tS", "SD"] L c ∨ d.TerminalAt ["tD", "SD"] L c) :
    L.drawn 65 20 c ∧ L.drawn 93 44 c ∧ ¬ L.drawn 64 20 c ∧ ¬ L.drawn 66 20 c := by
  have hd := mem_sky hd hm
  simp only [List.mem_cons, List.not_mem_nil, or_false] at hd
  rcases hd with rfl | rfl | rfl | rfl | rfl | rfl | rfl | rfl | rfl | rfl <;>
    first
    | exact absurd hk (by decide)
    | (clear hm hk; rcases h with h | h <;> obtain ⟨e, he, h⟩ := h <;> obtain rfl := Option.some.inj he <;> clear he <;>
        terminals_simp <;> grind)

/-- The gate of a transistor of sky130A is on `poly`, outside of resistors. -/
theorem gate_sky {L : Layout} {c : Cell} {d : DeviceRule} (hd : d ∈ Sky130A.devices) (hm : d.extractor = "mos4")
    (hk : d.model ∈ Sky130A.pFets ∨ d.model ∈ Sky130A.nFets) (h : d.TerminalAt ["tG", "G"] L c) :
    L.drawn 66 20 c ∧ ¬ L.drawn 66 13 c := by
  have hd := mem_sky hd hm
  simp only [List.mem_cons, List.not_mem_nil, or_false] at hd
  rcases hd with rfl | rfl | rfl | rfl | rfl | rfl | rfl | rfl | rfl | rfl <;>
    first
    | exact absurd hk (by decide)
    | (clear hm hk; obtain ⟨e, he, h⟩ := h; obtain rfl := Option.some.inj he; clear he; terminals_simp; grind)

/-- The bulk of a p channel transistor of sky130A is the n well. -/
theorem p_bulk_sky {L : Layout} {c : Cell} {d : DeviceRule} (hd : d ∈ Sky130A.devices) (hm : d.extractor = "mos4")
    (hk : d.model ∈ Sky130A.pFets) (h : d.TerminalAt ["tB", "tW", "W"] L c) :
    L.drawn 64 20 c := by
  have hd := mem_sky hd hm
  simp only [List.mem_cons, List.not_mem_nil, or_false] at hd
  rcases hd with rfl | rfl | rfl | rfl | rfl | rfl | rfl | rfl | rfl | rfl <;>
    first
    | exact absurd hk (by decide)
    | (clear hm hk; obtain ⟨e, he, h⟩ := h; obtain rfl := Option.some.inj he; clear he; terminals_simp; grind)

/-- Source and drain of a p channel transistor of sg13g2 lie on `activ` in `psd` and in the n well. -/
theorem p_source_sg {L : Layout} {c : Cell} {d : DeviceRule} (hd : d ∈ Sg13g2.devices) (hm : d.extractor = "mos4")
    (hk : d.model ∈ Sg13g2.pFets) (h : d.TerminalAt ["tS", "SD"] L c ∨ d.TerminalAt ["tD", "SD"] L c) :
    (L.drawn 1 0 c ∨ L.drawn 1 22 c) ∧ L.drawn 14 0 c ∧ L.drawn 31 0 c := by
  have hd := mem_sg hd hm
  simp only [List.mem_cons, List.not_mem_nil, or_false] at hd
  rcases hd with rfl | rfl | rfl | rfl | rfl | rfl | rfl | rfl <;>
    first
    | exact absurd hk (by decide)
    | (clear hm hk; rcases h with h | h <;> obtain ⟨e, he, h⟩ := h <;> obtain rfl := Option.some.inj he <;> clear he <;>
        terminals_simp <;> grind)

/-- Source and drain of an n channel transistor of sg13g2 lie on `activ`, outside of `psd` and of the n well. -/
theorem n_source_sg {L : Layout} {c : Cell} {d : DeviceRule} (hd : d ∈ Sg13g2.devices) (hm : d.extractor = "mos4")
    (hk : d.model ∈ Sg13g2.nFets) (h : d.TerminalAt ["tS", "SD"] L c ∨ d.TerminalAt ["tD", "SD"] L c) :
    (L.drawn 1 0 c ∨ L.drawn 1 22 c) ∧ ¬ L.drawn 14 0 c ∧ ¬ L.drawn 31 0 c := by
  have hd := mem_sg hd hm
  simp only [List.mem_cons, List.not_mem_nil, or_false] at hd
  rcases hd with rfl | rfl | rfl | rfl | rfl | rfl | rfl | rfl <;>
    first
    | exact absurd hk (by decide)
    | (clear hm hk; rcases h with h | h <;> obtain ⟨e, he, h⟩ := h <;> obtain rfl := Option.some.inj he <;> clear he <;>
        terminals_simp <;> grind)

/-- The gate of a transistor of sg13g2 is on `gatpoly`, outside of resistors. -/
theorem gate_sg {L : Layout} {c : Cell} {d : DeviceRule} (hd : d ∈ Sg13g2.devices) (hm : d.extractor = "mos4")
    (hk : d.model ∈ Sg13g2.pFets ∨ d.model ∈ Sg13g2.nFets) (h : d.TerminalAt ["tG", "G"] L c) :
    (L.drawn 5 0 c ∨ L.drawn 5 22 c) ∧ ¬ L.drawn 128 0 c ∧ ¬ L.drawn 24 0 c := by
  have hd := mem_sg hd hm
  simp only [List.mem_cons, List.not_mem_nil, or_false] at hd
  rcases hd with rfl | rfl | rfl | rfl | rfl | rfl | rfl | rfl <;>
    first
    | exact absurd hk (by decide)
    | (clear hm hk; obtain ⟨e, he, h⟩ := h; obtain rfl := Option.some.inj he; clear he; terminals_simp; grind)

/-- The bulk of a p channel transistor of sg13g2 is the n well or a tap in it. -/
theorem p_bulk_sg {L : Layout} {c : Cell} {d : DeviceRule} (hd : d ∈ Sg13g2.devices) (hm : d.extractor = "mos4")
    (hk : d.model ∈ Sg13g2.pFets) (h : d.TerminalAt ["tB", "tW", "W"] L c) :
    L.drawn 31 0 c := by
  have hd := mem_sg hd hm
  simp only [List.mem_cons, List.not_mem_nil, or_false] at hd
  rcases hd with rfl | rfl | rfl | rfl | rfl | rfl | rfl | rfl <;>
    first
    | exact absurd hk (by decide)
    | (clear hm hk; obtain ⟨e, he, h⟩ := h; obtain rfl := Option.some.inj he; clear he; terminals_simp; grind)

/-- The bulk of an n channel transistor of sg13g2 is the p well or a tap in it (where `nodrc` is not drawn). -/
theorem n_bulk_sg {L : Layout} {c : Cell} {d : DeviceRule} (hd : d ∈ Sg13g2.devices) (hm : d.extractor = "mos4")
    (hk : d.model ∈ Sg13g2.nFets) (h : d.TerminalAt ["tB", "tW", "W"] L c) :
    L.drawn 62 0 c ∨ ¬ L.drawn 31 0 c ∧ ¬ L.drawn 46 21 c := by
  have hd := mem_sg hd hm
  simp only [List.mem_cons, List.not_mem_nil, or_false] at hd
  rcases hd with rfl | rfl | rfl | rfl | rfl | rfl | rfl | rfl <;>
    first
    | exact absurd hk (by decide)
    | (clear hm hk; obtain ⟨e, he, h⟩ := h; obtain rfl := Option.some.inj he; clear he; terminals_simp; grind)

/-- The source and drain layers meet no gate. -/
def sourcesApart (ds : List DeviceRule) : Bool := ds.all fun d => ds.all fun d' => [["tS", "SD"], ["tD", "SD"]].all fun r =>
  match d.layer r, d'.layer ["G"] with
  | some e, some e' => contradictory (present e ++ present e')
  | _, _ => true

theorem sourcesApart_sound {ds : List DeviceRule} (h : sourcesApart ds = true) {d d' : DeviceRule} (hd : d ∈ ds) (hd' : d' ∈ ds)
    {L : Layout} {c : Cell} {r : List String} (hr : r ∈ [["tS", "SD"], ["tD", "SD"]]) (ht : d.TerminalAt r L c) :
    ¬ d'.GateAt L c := by
  rintro ⟨e', he', hg⟩
  obtain ⟨e, he, ht⟩ := ht
  have := List.all_eq_true.1 (List.all_eq_true.1 (List.all_eq_true.1 h d hd) d' hd') r hr
  rw [he, he'] at this
  exact contradictory_sound ((present_sound _ ht).append (present_sound _ hg)) this

/-- Sources and drains are beside the gates of all transistors. -/
theorem source_beside_gates {s : Script} {ds : List DeviceRule} {m : String} (h : DevicesOf s ds m) {L : Layout} {c : Cell}
    {d d' : DeviceRule} (hd : d ∈ ds) (hm : d.extractor = "mos4") (hd' : d' ∈ ds) (hm' : d'.extractor = "mos4")
    (ht : d.TerminalAt ["tS", "SD"] L c ∨ d.TerminalAt ["tD", "SD"] L c) : ¬ d'.GateAt L c := by
  cases h with
  | sky130A =>
    exact ht.elim (sourcesApart_sound (by decide +kernel) (mem_sky hd hm) (mem_sky hd' hm') (.head _))
      (sourcesApart_sound (by decide +kernel) (mem_sky hd hm) (mem_sky hd' hm') (.tail _ (.head _)))
  | sg13g2 =>
    exact ht.elim (sourcesApart_sound (by decide +kernel) (mem_sg hd hm) (mem_sg hd' hm') (.head _))
      (sourcesApart_sound (by decide +kernel) (mem_sg hd hm) (mem_sg hd' hm') (.tail _ (.head _)))

/-- The layers joined with one of `l` by up to `n` rounds over the `connect` statements. -/
def joined (s : Script) : Nat → List String → List String
  | 0, l => l
  | n + 1, l => joined s n (s.connects.foldl (fun l c => if l.contains c.1 then (if l.contains c.2 then l else c.2 :: l)
      else if l.contains c.2 then c.1 :: l else l) l)

theorem joined_sound {s : Script} {m : String} : ∀ {n : Nat} {l : List String}, (∀ a ∈ l, Reaches s a m) →
    ∀ a ∈ joined s n l, Reaches s a m
  | 0, _, h => h
  | n + 1, l, h => by
    rw [joined]
    refine joined_sound ?_
    have : ∀ (cs : List (String × String)), (∀ c ∈ cs, c ∈ s.connects) → ∀ l : List String, (∀ a ∈ l, Reaches s a m) →
        ∀ a ∈ cs.foldl (fun l c => if l.contains c.1 then (if l.contains c.2 then l else c.2 :: l)
          else if l.contains c.2 then c.1 :: l else l) l, Reaches s a m := by
      intro cs
      induction cs with
      | nil => exact fun _ _ h => h
      | cons c cs ih =>
        intro hc l h
        rw [List.foldl_cons]
        refine ih (fun x hx => hc x (.tail _ hx)) _ ?_
        have hcm : (c.1, c.2) ∈ s.connects := hc c (.head _)
        split_ifs with h1 h2 h2
        · exact h
        · intro a ha
          rcases List.mem_cons.1 ha with rfl | ha
          · exact .back hcm (h _ (List.contains_iff_mem.1 h1))
          · exact h a ha
        · intro a ha
          rcases List.mem_cons.1 ha with rfl | ha
          · exact .there hcm (h _ (List.contains_iff_mem.1 h2))
          · exact h a ha
        · exact h
    exact this _ (fun _ h => h) l h

/-- All terminals are on known layers joined with `m`, except the bulk of VPP capacitors. -/
def terminalsOk (s : Script) (ds : List DeviceRule) (m : String) : Bool :=
  let R := joined s 6 [m]
  ds.all fun d => (terminals d.extractor).all fun r =>
    match d.layerName r, d.layer r with
    | some n, some e => s.layers.contains (n, e) && (n == "vpp_sub" || R.contains n)
    | _, _ => false

theorem terminals_ok {s : Script} {ds : List DeviceRule} {m : String} (h : DevicesOf s ds m) : terminalsOk s ds m = true := by
  cases h <;> decide +kernel

/-- Every terminal of every device is on a layer with nets, and all but the bulk of VPP capacitors are on layers that wires can
reach. -/
theorem terminals_reached {s : Script} {ds : List DeviceRule} {m : String} (h : DevicesOf s ds m) {d : DeviceRule} (hd : d ∈ ds)
    {r : List String} (hr : r ∈ terminals d.extractor) : ∃ n e, d.layerName r = some n ∧ d.layer r = some e ∧
    (n, e) ∈ s.layers ∧ (n ≠ "vpp_sub" → Reaches s n m) := by
  have := List.all_eq_true.1 (List.all_eq_true.1 (terminals_ok h) d hd) r hr
  cases hn : d.layerName r with
  | none => simp [hn] at this
  | some n =>
    cases he : d.layer r with
    | none => simp [hn, he] at this
    | some e =>
      rw [hn, he] at this
      simp only [Bool.and_eq_true, Bool.or_eq_true, List.contains_iff_mem, beq_iff_eq] at this
      refine ⟨n, e, rfl, rfl, this.1, fun hv => ?_⟩
      refine joined_sound (fun a ha => ?_) n (this.2.resolve_left hv)
      obtain rfl := List.mem_singleton.1 ha
      exact .refl a

/-- The devices have terminals: the names of the extractors are those of the scripts. -/
theorem terminals_some {s : Script} {ds : List DeviceRule} {m : String} (h : DevicesOf s ds m) {d : DeviceRule} (hd : d ∈ ds) :
    2 ≤ (terminals d.extractor).length ∨ d.extractor = "GeneralNTerminalExtractor" := by
  have : (ds.all fun d => decide (2 ≤ (terminals d.extractor).length) || d.extractor == "GeneralNTerminalExtractor") = true := by
    cases h <;> decide +kernel
  simpa using List.all_eq_true.1 this d hd

/-- Violation: the net of the bulk of a VPP capacitor of sky130A has no shape on any wire: whatever is drawn, it has only shapes
of the markers of capacitors and inductors and the texts of `pwell_label`. -/
theorem vpp_bulk_alone {touch : Cell → Cell → Prop} {L : Layout} {c c' : Cell} {l : String}
    (h : SameNet Sky130A.script touch L ("vpp_sub", c) (l, c')) : l ∈ ["vpp_sub", "inductor_sub", "pwell_label"] := by
  have key : ∀ {x y : String × Cell}, SameNet Sky130A.script touch L x y →
      (x.1 ∈ ["vpp_sub", "inductor_sub", "pwell_label"] ↔ y.1 ∈ ["vpp_sub", "inductor_sub", "pwell_label"]) := by
    intro x y h
    induction h with
    | refl => rfl
    | symm _ ih => exact ih.symm
    | trans _ _ ih ih' => exact ih.trans ih'
    | within => rfl
    | across hlm =>
      have : (Sky130A.script.connects.all fun c => ["vpp_sub", "inductor_sub", "pwell_label"].contains c.1 ==
        ["vpp_sub", "inductor_sub", "pwell_label"].contains c.2) = true := by decide +kernel
      have := eq_of_beq (List.all_eq_true.1 this _ hlm)
      rw [Bool.eq_iff_iff, List.contains_iff_mem, List.contains_iff_mem] at this
      exact this
  exact (key h).1 (.head _)

/-- Some device has that layer as a terminal. -/
theorem vpp_bulk_used : ∃ d ∈ Sky130A.devices, d.model = "sky130_fd_pr__cap_vpp_02p4x04p6_m1m2_noshield" ∧
    ["B"] ∈ terminals d.extractor ∧ d.layerName ["B"] = some "vpp_sub" := by
  have : (Sky130A.devices.any fun d => d.model == "sky130_fd_pr__cap_vpp_02p4x04p6_m1m2_noshield" &&
    (terminals d.extractor).contains ["B"] && d.layerName ["B"] == some "vpp_sub") = true := by decide +kernel
  obtain ⟨d, hd, h⟩ := List.any_eq_true.1 this
  simp only [Bool.and_eq_true, beq_iff_eq, List.contains_iff_mem] at h
  exact ⟨d, hd, h.1.1, h.1.2, h.2⟩

theorem mem_diodes_sky {d : DeviceRule} (h : d ∈ Sky130A.devices) (hm : d.extractor = "diode") :
    d ∈ [Sky130A.device14, Sky130A.device15, Sky130A.device16, Sky130A.device17, Sky130A.device18, Sky130A.device19,
      Sky130A.device20, Sky130A.device21, Sky130A.device22] := by
  have : d ∈ Sky130A.devices.filter (·.extractor == "diode") := List.mem_filter.2 ⟨h, by simp [hm]⟩
  exact this

theorem mem_diodes_sg {d : DeviceRule} (h : d ∈ Sg13g2.devices) (hm : d.extractor = "diode") :
    d ∈ [Sg13g2.device12, Sg13g2.device13, Sg13g2.device36, Sg13g2.device37, Sg13g2.device40, Sg13g2.device41] := by
  have : d ∈ Sg13g2.devices.filter (·.extractor == "diode") := List.mem_filter.2 ⟨h, by simp [hm]⟩
  exact this

/-- The anode of a diode from p diffusion to the n well lies on `diff` in `psdm`, and its cathode in the n well. -/
theorem pdiode_sky {L : Layout} {c : Cell} {d : DeviceRule} (hd : d ∈ Sky130A.devices) (hm : d.extractor = "diode")
    (hk : d.model ∈ ["sky130_fd_pr__diode_pd2nw_05v5", "sky130_fd_pr__diode_pd2nw_05v5_lvt", "sky130_fd_pr__diode_pd2nw_05v5_hvt",
      "sky130_fd_pr__diode_pd2nw_11v0"]) :
    (d.TerminalAt ["tA", "P"] L c → L.drawn 65 20 c ∧ L.drawn 94 20 c) ∧ (d.TerminalAt ["tC", "N"] L c → L.drawn 64 20 c) := by
  have hd := mem_diodes_sky hd hm
  simp only [List.mem_cons (a := d), List.not_mem_nil, or_false] at hd
  rcases hd with rfl | rfl | rfl | rfl | rfl | rfl | rfl | rfl | rfl <;>
    first
    | exact absurd hk (by decide)
    | (clear hm hk; constructor <;> rintro ⟨e, he, h⟩ <;> obtain rfl := Option.some.inj he <;> clear he <;>
        terminals_simp <;> grind)

/-- The cathode of the diode from the substrate to n diffusion of the standard threshold lies on `diff` in `nsdm`. -/
theorem ndiode_sky_partial {L : Layout} {c : Cell} {d : DeviceRule} (hd : d ∈ Sky130A.devices)
    (hm : d.extractor = "diode") (hk : d.model = "sky130_fd_pr__diode_pw2nd_05v5") (h : d.TerminalAt ["tC", "N"] L c) :
    L.drawn 65 20 c ∧ L.drawn 93 44 c := by
  have hd := mem_diodes_sky hd hm
  simp only [List.mem_cons (a := d), List.not_mem_nil, or_false] at hd
  rcases hd with rfl | rfl | rfl | rfl | rfl | rfl | rfl | rfl | rfl <;>
    first
    | exact absurd hk (by decide)
    | (clear hm hk; obtain ⟨e, he, h⟩ := h; obtain rfl := Option.some.inj he; clear he; terminals_simp; grind)

/-- Violation: of the other three diodes from the substrate to n diffusion, it is the anode that lies on the n diffusion, so they
are extracted with their terminals exchanged. -/
theorem ndiode_reversed {L : Layout} {c : Cell} {d : DeviceRule} (hd : d ∈ Sky130A.devices) (hm : d.extractor = "diode")
    (hk : d.model ∈ ["sky130_fd_pr__diode_pw2nd_05v5_lvt", "sky130_fd_pr__diode_pw2nd_05v5_nvt",
      "sky130_fd_pr__diode_pw2nd_11v0"]) (h : d.TerminalAt ["tA", "P"] L c) : L.drawn 65 20 c ∧ L.drawn 93 44 c := by
  have hd := mem_diodes_sky hd hm
  simp only [List.mem_cons (a := d), List.not_mem_nil, or_false] at hd
  rcases hd with rfl | rfl | rfl | rfl | rfl | rfl | rfl | rfl | rfl <;>
    first
    | exact absurd hk (by decide)
    | (clear hm hk; obtain ⟨e, he, h⟩ := h; obtain rfl := Option.some.inj he; clear he; terminals_simp; grind)

/-- The cathode of the antenna diode `dantenna` lies on n diffusion and its anode outside of the n well; the anode of `dpantenna`
lies on p diffusion and its cathode in the n well. -/
theorem diodes_sg {L : Layout} {c : Cell} {d : DeviceRule} (hd : d ∈ Sg13g2.devices) (hm : d.extractor = "diode") :
    (d.model = "dantenna" → (d.TerminalAt ["tC", "N"] L c → (L.drawn 1 0 c ∨ L.drawn 1 22 c) ∧ ¬ L.drawn 14 0 c ∧ ¬ L.drawn 31 0 c) ∧
      (d.TerminalAt ["tA", "P"] L c → ¬ L.drawn 31 0 c)) ∧
    (d.model = "dpantenna" → (d.TerminalAt ["tA", "P"] L c → (L.drawn 1 0 c ∨ L.drawn 1 22 c) ∧ L.drawn 14 0 c) ∧
      (d.TerminalAt ["tC", "N"] L c → L.drawn 31 0 c)) := by
  have hd := mem_diodes_sg hd hm
  simp only [List.mem_cons (a := d), List.not_mem_nil, or_false] at hd
  rcases hd with rfl | rfl | rfl | rfl | rfl | rfl <;> refine ⟨fun hk => ?_, fun hk => ?_⟩ <;>
    first
    | exact absurd hk (by decide)
    | (clear hm hk; constructor <;> rintro ⟨e, he, h⟩ <;> obtain rfl := Option.some.inj he <;> clear he <;>
        terminals_simp <;> grind)

/-- A transistor, a diode and a reversed diode of sky130A, drawn side by side with all selections as the script makes them. -/
theorem terminals_ex : ∃ (L : Layout) (a b c : Cell), (∃ d ∈ Sky130A.devices, d.extractor = "mos4" ∧
      d.model = "sky130_fd_pr__nfet_01v8" ∧ d.TerminalAt ["tS", "SD"] L a ∧ d.TerminalAt ["tG", "G"] L b) ∧
    (∃ d ∈ Sky130A.devices, d.extractor = "diode" ∧ d.model = "sky130_fd_pr__diode_pw2nd_05v5" ∧ d.TerminalAt ["tC", "N"] L c) ∧
    ∃ d ∈ Sky130A.devices, d.extractor = "diode" ∧ d.model = "sky130_fd_pr__diode_pw2nd_05v5_lvt" ∧
      d.TerminalAt ["tA", "P"] L c := by
  refine ⟨⟨fun l t c => (l, t, c) ∈ [(65, 20, (0, 0)), (93, 44, (0, 0)), (66, 20, (1, 0)), (65, 20, (1, 0)), (93, 44, (1, 0)),
    (65, 20, (5, 0)), (93, 44, (5, 0))], fun _ _ _ => False, fun _ _ => True⟩, (0, 0), (1, 0), (5, 0),
    ⟨Sky130A.device4, List.mem_of_getElem? (i := 4) rfl, rfl, rfl, ⟨_, rfl, ?_⟩, ⟨_, rfl, ?_⟩⟩,
    ⟨Sky130A.device14, List.mem_of_getElem? (i := 14) rfl, rfl, rfl, ⟨_, rfl, ?_⟩⟩,
    ⟨Sky130A.device15, List.mem_of_getElem? (i := 15) rfl, rfl, rfl, ⟨_, rfl, ?_⟩⟩⟩ <;>
  · terminals_simp
    simp

end Verif.LvsRules
