import Verif.Decks.ReaderProps

/-!
# The netlist file of LVS of sg13g2 (C133)

pdk/ihp_sg13g2/libs.tech/kpex/rule_decks/custom_writer.lvs 25–66, globals.lvs 25–62, and the device classes of the statements
`extract_devices` in the rule decks `*_extraction.lvs`.
-/

namespace Verif.Decks

/-! ### Model -/

/-- `PREFIX_MAP`; globals.lvs 25–62. -/
def prefixMap : List (String × Char) :=
  [("sg13_lv_nmos", 'M'), ("sg13_hv_nmos", 'M'), ("sg13_lv_pmos", 'M'), ("sg13_hv_pmos", 'M'), ("rfnmos", 'M'),
    ("rfnmosHV", 'M'), ("rfpmos", 'M'), ("rfpmosHV", 'M'), ("npn13G2", 'Q'), ("npn13G2L", 'Q'), ("npn13G2V", 'Q'),
    ("pnpMPA", 'Q'), ("dantenna", 'D'), ("dpantenna", 'D'), ("schottky_nbl1", 'D'), ("rsil", 'R'), ("rppd", 'R'),
    ("rhigh", 'R'), ("lvsres", 'R'), ("SVaricap", 'C'), ("cap_cmim", 'C'), ("rfcmim", 'C'), ("diodevss_4kv", 'D'),
    ("diodevss_2kv", 'D'), ("diodevdd_4kv", 'D'), ("diodevdd_2kv", 'D'), ("idiodevss_4kv", 'D'), ("idiodevss_2kv", 'D'),
    ("idiodevdd_4kv", 'D'), ("idiodevdd_2kv", 'D'), ("nmoscl_2", 'D'), ("nmoscl_4", 'D'), ("ptap1", 'R'), ("ntap1", 'R'),
    ("inductor2", 'L'), ("inductor3", 'L')]

/-- `CustomTap`; custom_devices.lvs 184–193. -/
def customTap : DeviceClass where
  terminals := ["A", "C"].map String.toList
  params := ["A", "P"]

/-- The classes of the devices that are extracted: `extract_devices` in mos_extraction.lvs, rfmos_extraction.lvs,
bjt_extraction.lvs, diode_extraction.lvs, res_extraction.lvs, cap_extraction.lvs, esd_extraction.lvs, ind_extraction.lvs and
tap_extraction.lvs; the class of GeneralNTerminalExtractor is chosen in custom_extractor.lvs 42–56. -/
def extractedClasses : List DeviceClass :=
  let named (s : String) (c : Str → DeviceClass) : DeviceClass := { c s.toList with name := s.toList }
  ["sg13_lv_nmos", "sg13_hv_nmos", "sg13_lv_pmos", "sg13_hv_pmos", "rfnmos", "rfnmoshv", "rfpmos", "rfpmoshv"].map
    (named · fun _ => mos4) ++
  ["npn13G2", "npn13G2l", "npn13G2v"].map (named · fun _ => customBjt4) ++
  ["pnpMPA"].map (named · fun _ => customBjt3) ++
  ["dantenna", "dpantenna"].map (named · fun _ => enDiode) ++
  ["schottky_nbl1", "diodevdd_2kv", "diodevdd_4kv", "diodevss_2kv", "diodevss_4kv", "idiodevdd_2kv", "idiodevdd_4kv",
    "idiodevss_2kv", "idiodevss_4kv"].map (named · fun _ => esd3) ++
  ["nmoscl_2", "nmoscl_4"].map (named · fun _ => esd2) ++
  ["rsil", "rppd", "rhigh"].map (named · fun n => customRes n 2) ++
  ["res_metal1", "res_metal2", "res_metal3", "res_metal4", "res_metal5", "res_topmetal1", "res_topmetal2"].map
    (named · fun _ => resistor) ++
  ["cap_cmim", "rfcmim"].map (named · customMim) ++
  ["sg13_hv_svaricap"].map (named · fun n => customVaractor n 3) ++
  ["inductor"].map (named · fun n => customInd n 2) ++ ["inductor3"].map (named · fun n => customInd n 3) ++
  ["ntap1", "ptap1"].map (named · fun _ => customTap)

/-- A line of the netlist: what stands before the name of the device, the name, the nets and the model, separated by blanks,
and the parameters. Numbers are exact here; the writer prints 12 digits. -/
structure Line where
  start : Str
  name : Str
  nets : List Str
  model : Str
  params : List (String × ℚ)

/-- `write_device`; custom_writer.lvs 28–65. `id` is the number of the device in its circuit; `net` gives the name of the net at
a terminal, `value` that of a parameter. -/
def writeDevice (cls : DeviceClass) (id : Nat) (name : Str) (net : Str → Str) (value : String → ℚ) : Line where
  start := match prefixMap.find? fun e => e.1.toList == cls.name with
    | some e => [e.2]
    | none => (toString id).toList
  name := name
  nets := cls.terminals.map net
  model := cls.name
  params := cls.params.map fun k => (k, value k)

/-- The kind of element of a line by its first letter, as a reader of SPICE files sees it. -/
def eleOf : Str → Option Ele
  | 'M' :: _ => some .M
  | 'C' :: _ => some .C
  | 'R' :: _ => some .R
  | 'Q' :: _ => some .Q
  | 'L' :: _ => some .L
  | 'D' :: _ => some .D
  | _ => none

/-! ### Specification -/

/-- The line is an element whose nets stand in the order of its pins, where `net` gives the net at each pin. -/
def InPinOrder (l : Line) (net : Str → Str) : Prop :=
  ∃ ele pins, eleOf (l.start ++ l.name) = some ele ∧ Pins ele l.model pins ∧ l.nets = pins.map net

/-- Models whose devices are written in the order of the pins. -/
def WrittenInOrder : List String :=
  ["npn13G2", "pnpMPA", "dantenna", "dpantenna", "rsil", "rppd", "rhigh", "cap_cmim", "rfcmim", "inductor3"]

/-- Transistors, whose source and drain can be exchanged. -/
def Transistors : List String := ["sg13_lv_nmos", "sg13_hv_nmos", "sg13_lv_pmos", "sg13_hv_pmos", "rfnmos", "rfpmos"]

/-- Models whose devices are written in another order than that of the pins. -/
def OutOfOrder : List String :=
  ["schottky_nbl1", "diodevdd_2kv", "diodevdd_4kv", "diodevss_2kv", "diodevss_4kv", "idiodevdd_2kv", "idiodevdd_4kv",
    "idiodevss_2kv", "idiodevss_4kv", "nmoscl_2", "nmoscl_4", "ntap1", "ptap1"]

/-- Models whose devices start with a number. -/
def WithoutLetter : List String :=
  ["rfnmoshv", "rfpmoshv", "npn13G2l", "npn13G2v", "res_metal1", "res_metal2", "res_metal3", "res_metal4", "res_metal5",
    "res_topmetal1", "res_topmetal2", "sg13_hv_svaricap", "inductor"]

/-- Exchange source and drain. -/
def swapSD (t : Str) : Str := if t = "S".toList then "D".toList else if t = "D".toList then "S".toList else t

/-! ### Proofs -/

theorem start_of {cls : DeviceClass} {x : Char} (h : (prefixMap.find? fun e => e.1.toList == cls.name).map (·.2) = some x)
    (id : Nat) (name : Str) (net : Str → Str) (value : String → ℚ) : (writeDevice cls id name net value).start = [x] := by
  unfold writeDevice
  cases hf : prefixMap.find? fun e => e.1.toList == cls.name with
  | none => rw [hf] at h; cases h
  | some e => rw [hf] at h; simp only [Option.map_some, Option.some.injEq] at h; simp [h]

theorem start_num {cls : DeviceClass} (h : prefixMap.find? (fun e => e.1.toList == cls.name) = none)
    (id : Nat) (name : Str) (net : Str → Str) (value : String → ℚ) :
    (writeDevice cls id name net value).start = (toString id).toList := by
  unfold writeDevice
  rw [h]

/-- A line with the pins of its model. -/
theorem inPinOrder_of {cls : DeviceClass} {x : Char} {ele : Ele} {pins : List Str}
    (h : (prefixMap.find? fun e => e.1.toList == cls.name).map (·.2) = some x) (he : ∀ s, eleOf (x :: s) = some ele)
    (hp : Pins ele cls.name pins) (π : Str → Str) (ht : cls.terminals = pins.map π)
    (id : Nat) (name : Str) (net : Str → Str) (value : String → ℚ) :
    InPinOrder (writeDevice cls id name net value) (net ∘ π) := by
  refine ⟨ele, pins, ?_, hp, ?_⟩
  · rw [start_of h]
    exact he name
  · show cls.terminals.map net = _
    rw [ht, List.map_map]

/-! ### C133 -/

/-- The models of the extracted devices, sorted by how they are written. -/
theorem models_sorted : ∀ c ∈ extractedClasses,
    ∃ n ∈ WrittenInOrder ++ Transistors ++ OutOfOrder ++ WithoutLetter, c.name = n.toList := by decide +kernel

/-- **C133, in part.** Devices of these models are written with the letter of their element and the nets in the order of the
pins. -/
theorem written_in_order_partial (c : DeviceClass) (hc : c ∈ extractedClasses) (hn : ∃ n ∈ WrittenInOrder, c.name = n.toList)
    (id : Nat) (name : Str) (net : Str → Str) (value : String → ℚ) :
    InPinOrder (writeDevice c id name net value) net := by
  have key : ∃ x ele pins, (prefixMap.find? fun e => e.1.toList == c.name).map (·.2) = some x ∧
      (∀ s, eleOf (x :: s) = some ele) ∧ Pins ele c.name pins ∧ c.terminals = pins := by
    obtain ⟨n, hn, hcn⟩ := hn
    have hmem : ∀ c ∈ extractedClasses, ∀ n ∈ WrittenInOrder, c.name = n.toList →
        c ∈ [{ customBjt4 with name := "npn13G2".toList }, { customBjt3 with name := "pnpMPA".toList },
          { enDiode with name := "dantenna".toList }, { enDiode with name := "dpantenna".toList },
          { customRes "rsil".toList 2 with name := "rsil".toList }, { customRes "rppd".toList 2 with name := "rppd".toList },
          { customRes "rhigh".toList 2 with name := "rhigh".toList },
          { customMim "cap_cmim".toList with name := "cap_cmim".toList },
          { customMim "rfcmim".toList with name := "rfcmim".toList },
          { customInd "inductor3".toList 3 with name := "inductor3".toList }] := by decide +kernel
    have := hmem c hc n hn hcn
    clear hn hcn hc hmem
    simp only [List.mem_cons, List.not_mem_nil, or_false] at this
    rcases this with rfl | rfl | rfl | rfl | rfl | rfl | rfl | rfl | rfl | rfl
    · exact ⟨'Q', .Q, _, by decide, fun _ => rfl, .npn (by unfold Has; decide), by decide⟩
    · exact ⟨'Q', .Q, _, by decide, fun _ => rfl, .pnp (by unfold Has; decide), by decide⟩
    · exact ⟨'D', .D, _, by decide, fun _ => rfl, .diode (by unfold Has; decide) (by unfold Has; decide) (by unfold Has; decide), by decide⟩
    · exact ⟨'D', .D, _, by decide, fun _ => rfl, .diode (by unfold Has; decide) (by unfold Has; decide) (by unfold Has; decide), by decide⟩
    · exact ⟨'R', .R, _, by decide, fun _ => rfl, .polyRes (by unfold PolyRes; decide) (by unfold Has; decide), by decide +kernel⟩
    · exact ⟨'R', .R, _, by decide, fun _ => rfl, .polyRes (by unfold PolyRes; decide) (by unfold Has; decide), by decide +kernel⟩
    · exact ⟨'R', .R, _, by decide, fun _ => rfl, .polyRes (by unfold PolyRes; decide) (by unfold Has; decide), by decide +kernel⟩
    · exact ⟨'C', .C, _, by decide, fun _ => rfl, .cap (by unfold Has; decide) (by unfold Has; decide), by decide +kernel⟩
    · exact ⟨'C', .C, _, by decide, fun _ => rfl, .rfcap (by unfold Has; decide) (by unfold Has; decide), by decide +kernel⟩
    · exact ⟨'L', .L, _, by decide, fun _ => rfl, .ind3 _, by decide +kernel⟩
  obtain ⟨x, ele, pins, h1, h2, h3, h4⟩ := key
  exact inPinOrder_of h1 h2 h3 _root_.id (by rw [h4, List.map_id]) id name net value

/-- **C133, in part.** Transistors are written with source and drain exchanged, which does not change what they do. -/
theorem transistors_written_partial (c : DeviceClass) (hc : c ∈ extractedClasses) (hn : ∃ n ∈ Transistors, c.name = n.toList)
    (id : Nat) (name : Str) (net : Str → Str) (value : String → ℚ) :
    InPinOrder (writeDevice c id name net value) (net ∘ swapSD) := by
  obtain ⟨n, hn, hcn⟩ := hn
  have hmem : ∀ c ∈ extractedClasses, ∀ n ∈ Transistors, c.name = n.toList → c.terminals = mos4.terminals ∧
      (prefixMap.find? fun e => e.1.toList == c.name).map (·.2) = some 'M' := by decide +kernel
  obtain ⟨h1, h2⟩ := hmem c hc n hn hcn
  exact inPinOrder_of h2 (fun _ => rfl) (.mos _) _ (by rw [h1]; decide) id name net value

/-- C133 fails for protection devices, Schottky diodes and taps: the nets stand in another order than the pins, if they are
different. -/
theorem out_of_order (c : DeviceClass) (hc : c ∈ extractedClasses) (hn : ∃ n ∈ OutOfOrder, c.name = n.toList)
    (id : Nat) (name : Str) (net : Str → Str) (value : String → ℚ) (hd : ∀ s ∈ c.terminals, ∀ t ∈ c.terminals, net s = net t → s = t) :
    ¬ InPinOrder (writeDevice c id name net value) net := by
  obtain ⟨n, hn, hcn⟩ := hn
  have hmem : ∀ c ∈ extractedClasses, ∀ n ∈ OutOfOrder, c.name = n.toList → ∃ y ∈ [('D', Ele.D), ('R', Ele.R)],
      (prefixMap.find? fun e => e.1.toList == c.name).map (·.2) = some y.1 ∧
        (∀ t ∈ terminalList y.2 c.name c.terminals.length, t ∈ c.terminals) ∧
        terminalList y.2 c.name c.terminals.length ≠ c.terminals := by decide +kernel
  obtain ⟨⟨x, ele'⟩, hx, h1, h2, h3⟩ := hmem c hc n hn hcn
  rintro ⟨ele, pins, he, hp, hnets⟩
  rw [start_of h1] at he
  have hele : ele = ele' := by
    simp only [List.mem_cons, Prod.mk.injEq, List.not_mem_nil, or_false] at hx
    rcases hx with ⟨rfl, rfl⟩ | ⟨rfl, rfl⟩ <;> exact (Option.some.inj he).symm
  subst hele
  change c.terminals.map net = pins.map net at hnets
  have hl : c.terminals.length = pins.length := by simpa using congrArg List.length hnets
  obtain ⟨_, _, ht, _⟩ := valid_class hp fun _ => none
  change terminalList ele c.name pins.length = pins at ht
  simp only at h2 h3
  rw [hl, ht] at h2 h3
  refine h3 (List.ext_getElem hl.symm fun i hi hi' => ?_)
  refine hd _ (h2 _ (List.getElem_mem _)) _ (List.getElem_mem _) ?_
  have := congrArg (fun l => l[i]?) hnets
  simp only [List.getElem?_map, List.getElem?_eq_getElem hi, List.getElem?_eq_getElem hi', Option.map_some, Option.some.injEq] at this
  exact this.symm

/-- C133 fails for these models: their devices are written with a number in place of the letter, so that the line is no
element. -/
theorem without_letter (c : DeviceClass) (hc : c ∈ extractedClasses) (hn : ∃ n ∈ WithoutLetter, c.name = n.toList)
    (id : Nat) (name : Str) (net net' : Str → Str) (value : String → ℚ) :
    ¬ InPinOrder (writeDevice c id name net value) net' := by
  obtain ⟨n, hn, hcn⟩ := hn
  have hmem : ∀ c ∈ extractedClasses, ∀ n ∈ WithoutLetter, c.name = n.toList →
      prefixMap.find? (fun e => e.1.toList == c.name) = none := by decide +kernel
  rintro ⟨ele, pins, he, _⟩
  rw [start_num (hmem c hc n hn hcn)] at he
  have hdig : ∀ d ∈ (toString id).toList, d.isDigit = true := fun d hd => by
    have : (toString id).toList = Nat.toDigits 10 id := Nat.toList_repr
    rw [this] at hd
    exact Nat.isDigit_of_mem_toDigits (by decide) (by decide) hd
  have hne : (toString id).toList ≠ [] := by
    have : (toString id).toList = Nat.toDigits 10 id := Nat.toList_repr
    rw [this]
    exact Nat.toDigits_ne_nil
  obtain ⟨d, ds, hs⟩ := List.exists_cons_of_ne_nil hne
  rw [hs, List.cons_append] at he
  have hd := hdig d (by rw [hs]; simp)
  unfold eleOf at he
  split at he <;> first | (cases he; done) | (injection ‹_ :: _ = _› with h1 h2; subst h1; exact absurd hd (by decide))

/-- The element that a reader sees in a line, with the names of its parameters in capitals. -/
def elementOf (ele : Ele) (l : Line) : Element :=
  ⟨ele, l.name, l.model, l.nets, fun x => (l.params.find? fun q => decide (q.1.toList.map Char.toUpper = x.toList)).map (·.2)⟩

/-- C133 fails for sizes: the file states micrometres without a unit, which are read as metres. A transistor that is read back
has a million times its width and length. -/
theorem units_lost (c : DeviceClass) (hc : c ∈ extractedClasses) (hn : ∃ n ∈ Transistors, c.name = n.toList)
    (id : Nat) (name : Str) (net : Str → Str) (value : String → ℚ) :
    ∃ cs d, readAll [] [elementOf .M (writeDevice c id name net value)] = .ok (cs, [d]) ∧
      d.params = [("W", value "W" * 1000000), ("L", value "L" * 1000000)] := by
  obtain ⟨n, hn, hcn⟩ := hn
  have hmem : ∀ c ∈ extractedClasses, ∀ n ∈ Transistors, c.name = n.toList → c.terminals = mos4.terminals ∧
      c.params = mos4.params := by decide +kernel
  obtain ⟨h1, h2⟩ := hmem c hc n hn hcn
  obtain ⟨cs, ds, h, hf⟩ := readAll_ok (all := [elementOf .M (writeDevice c id name net value)])
    (by intro e he e' he' _; obtain rfl := List.mem_singleton.1 he; obtain rfl := List.mem_singleton.1 he'; exact ⟨rfl, rfl⟩)
    _ [] (fun _ h => absurd h List.not_mem_nil)
    (by
      intro e he
      refine ⟨he, ?_⟩
      obtain rfl := List.mem_singleton.1 he
      exact ⟨_, .mos _, by simp [elementOf, writeDevice, h1, mos4]⟩)
  cases hf with
  | cons hd hnil =>
    cases hnil
    refine ⟨cs, _, h, ?_⟩
    rw [hd.2]
    have e1 : (elementOf .M (writeDevice c id name net value)).params "W" = some (value "W") := by
      simp [elementOf, writeDevice, h2, mos4, Char.toUpper]
    have e2 : (elementOf .M (writeDevice c id name net value)).params "L" = some (value "L") := by
      simp [elementOf, writeDevice, h2, mos4, Char.toUpper]
    have e3 : (elementOf .M (writeDevice c id name net value)).params "M" = none := by
      simp [elementOf, writeDevice, h2, mos4, Char.toUpper]
    show mosParams _ = _
    simp only [mosParams, orElse, e1, e2, e3, Option.getD_some, Option.getD_none, mul_one]
    norm_num

/-- C133: the lists name extracted devices. -/
theorem written_ex : (∃ c ∈ extractedClasses, c.name = "npn13G2".toList) ∧ (∃ c ∈ extractedClasses, c.name = "rfnmos".toList) ∧
    (∃ c ∈ extractedClasses, c.name = "nmoscl_2".toList) ∧ (∃ c ∈ extractedClasses, c.name = "inductor".toList) := by
  decide +kernel

end Verif.Decks
