import Mathlib.Data.List.Forall2
import Verif.Decks.Reader

/-!
# Schematics of sg13g2 are read with all nets and in the right units (C131, C132)
-/

namespace Verif.Decks

/-! ### Specification -/

/-- The model name contains the word, in any case. -/
def Has (model : Str) (x : String) : Prop := x.toList <:+: model.map Char.toLower

/-- The model name starts with the name of a poly resistor, in any case. -/
def PolyRes (model : Str) : Prop := ∃ x ∈ ["rsil", "rppd", "rhigh"], x.toList <+: model.map Char.toLower

/-- The pins of the elements of SPICE for the models of sg13g2, in their order in a schematic. A model name with several of
the words is not in use. -/
inductive Pins : Ele → Str → List Str → Prop
  | mos (m) : Pins .M m (["D", "G", "S", "B"].map String.toList)
  | npn {m} : ¬ Has m "pnp" → Pins .Q m (["C", "B", "E", "S"].map String.toList)
  | pnp {m} : Has m "pnp" → Pins .Q m (["C", "B", "E"].map String.toList)
  | cap {m} : ¬ Has m "varicap" → ¬ Has m "rfcmim" → Pins .C m (["mim_top", "mim_btm"].map String.toList)
  | rfcap {m} : ¬ Has m "varicap" → Has m "rfcmim" → Pins .C m (["mim_top", "mim_btm", "mim_sub"].map String.toList)
  | varicap {m} : Has m "varicap" → ¬ Has m "mim" →
    Pins .C m [m ++ "_1".toList, m ++ "_2".toList, m ++ "_3".toList, m ++ "_sub".toList]
  | polyRes {m} : PolyRes m → ¬ Has m "tap" → Pins .R m [m ++ "_1".toList, m ++ "_2".toList]
  | tap {m} : ¬ PolyRes m → Has m "tap" → Pins .R m (["C", "A"].map String.toList)
  | res {m} : ¬ PolyRes m → ¬ Has m "tap" → Pins .R m (["A", "B"].map String.toList)
  | resBulk {m} : ¬ PolyRes m → ¬ Has m "tap" → Pins .R m (["A", "B", "W"].map String.toList)
  | ind2 (m) : Pins .L m [m ++ "_1".toList, m ++ "_2".toList, m ++ "_sub".toList]
  | ind3 (m) : Pins .L m [m ++ "_1".toList, m ++ "_2".toList, m ++ "_3".toList, m ++ "_sub".toList]
  | diode {m} : ¬ Has m "diodev" → ¬ Has m "schottky" → ¬ Has m "nmoscl" → Pins .D m (["A", "C"].map String.toList)
  | diodevdd {m} : Has m "diodevdd" → Pins .D m (["B", "E", "C"].map String.toList)
  | diodevss {m} : Has m "diodevss" → ¬ Has m "diodevdd" → Pins .D m (["C", "E", "B"].map String.toList)
  | schottky {m} : Has m "schottky" → ¬ Has m "diodevdd" → ¬ Has m "diodevss" → Pins .D m (["E", "B", "C"].map String.toList)
  | nmoscl {m} : Has m "nmoscl" → ¬ Has m "diodev" → ¬ Has m "schottky" → Pins .D m (["C", "A"].map String.toList)

/-- The element has a net for each of its pins. -/
def Valid (e : Element) : Prop := ∃ pins, Pins e.ele e.model pins ∧ pins.length = e.nets.length

/-- The device has the name and model of the element, a net of the element at each pin in their order, and no other
terminal. -/
def ReadAs (e : Element) (d : Device) : Prop :=
  d.name = e.name ∧ d.cls.name = e.model ∧
    ∃ pins, Pins e.ele e.model pins ∧ d.conns = (pins.zip e.nets).map (fun p => (p.1, some p.2)) ∧
      pins.length = e.nets.length ∧ pins.Perm d.cls.terminals

/-! ### Proofs -/

theorem has_iff {m : Str} {x : String} : has m x = true ↔ Has m x := by
  rw [has, decide_eq_true_iff]
  rfl

theorem has_false {m : Str} {x : String} : has m x = false ↔ ¬ Has m x := by rw [← has_iff, Bool.not_eq_true]

theorem isRes_iff {m : Str} : isRes m = true ↔ PolyRes m := by
  rw [isRes, List.any_eq_true]
  simp only [decide_eq_true_iff]
  rfl

theorem isRes_false {m : Str} : isRes m = false ↔ ¬ PolyRes m := by rw [← isRes_iff, Bool.not_eq_true]

theorem Has.of_infix {m : Str} {x y : String} (h : Has m x) (hi : y.toList <:+: x.toList) : Has m y := hi.trans h

theorem numbered_one (m : Str) : numbered m 1 = m ++ "_1".toList := rfl
theorem numbered_two (m : Str) : numbered m 2 = m ++ "_2".toList := rfl
theorem numbered_three (m : Str) : numbered m 3 = m ++ "_3".toList := rfl

theorem termNames_two (m : Str) : termNames m 2 = [m ++ "_1".toList, m ++ "_2".toList] := by
  simp only [termNames, List.range, List.range.loop, List.map, Nat.zero_add, Nat.reduceAdd, numbered_one, numbered_two]

theorem termsWithSub_three (m : Str) : termsWithSub m 3 = [m ++ "_1".toList, m ++ "_2".toList, m ++ "_sub".toList] := by
  simp only [termsWithSub, Nat.add_one_sub_one, List.range, List.range.loop, List.map, Nat.zero_add, Nat.reduceAdd, numbered_one, numbered_two, subOf,
    List.cons_append, List.nil_append]

theorem termsWithSub_four (m : Str) :
    termsWithSub m 4 = [m ++ "_1".toList, m ++ "_2".toList, m ++ "_3".toList, m ++ "_sub".toList] := by
  simp only [termsWithSub, Nat.reduceSub, List.range, List.range.loop, List.map, Nat.zero_add, Nat.reduceAdd, numbered_one, numbered_two,
    numbered_three, subOf, List.cons_append, List.nil_append]

/-- What the reader computes for a valid element. -/
theorem valid_class {ele : Ele} {m : Str} {pins : List Str} (h : Pins ele m pins) (p : Params) :
    ∃ c, classFor ele m pins.length = .ok c ∧ terminalList ele m pins.length = pins ∧ pins.Perm c.terminals ∧
      ∀ q ∈ mapParams ele m p, q.1 ∈ c.params := by
  cases h with
  | mos =>
    refine ⟨mos4, rfl, rfl, by decide, ?_⟩
    simp [mapParams, mosParams, mos4]
  | npn h =>
    have h := has_false.2 h
    refine ⟨customBjt4, by simp [classFor, createBjt, h], by simp [terminalList, h], by decide, ?_⟩
    simp [mapParams, bjtParams, customBjt4, h]
  | pnp h =>
    have h := has_iff.2 h
    refine ⟨customBjt3, by simp [classFor, createBjt, h], by simp [terminalList, h], by decide, ?_⟩
    simp [mapParams, bjtParams, customBjt3, h]
  | cap h1 h2 =>
    have h1 := has_false.2 h1
    have h2 := has_false.2 h2
    refine ⟨customMim m, by simp [classFor, createCapacitor, h1], by simp [terminalList, mimTerms, h1, h2],
      by simp [customMim, h2], ?_⟩
    intro q hq
    simp only [mapParams, capacitorParams, h2, customMim, List.mem_append, List.mem_cons, List.not_mem_nil, or_false] at hq ⊢
    split_ifs at hq <;> aesop
  | rfcap h1 h2 =>
    have h1 := has_false.2 h1
    have h2 := has_iff.2 h2
    refine ⟨customMim m, by simp [classFor, createCapacitor, h1], by simp [terminalList, mimTerms, h1, h2],
      by simp [customMim, h2], ?_⟩
    intro q hq
    simp only [mapParams, capacitorParams, h2, customMim, List.mem_append, List.mem_cons, List.not_mem_nil, or_false] at hq ⊢
    split_ifs at hq <;> aesop
  | varicap h1 h2 =>
    have h3 : has m "cap_cmim" = false := has_false.2 fun h => h2 (h.of_infix (by decide))
    have h4 : has m "rfcmim" = false := has_false.2 fun h => h2 (h.of_infix (by decide))
    have h1 := has_iff.2 h1
    have h2 := has_false.2 h2
    refine ⟨customVaractor m 3, by simp [classFor, createCapacitor, h1], ?_, ?_, ?_⟩
    · rw [terminalList, if_pos h1]
      exact termsWithSub_four m
    · exact .of_eq (termsWithSub_four m).symm
    · simp [mapParams, capacitorParams, customVaractor, h2, h3, h4]
  | polyRes h1 h2 =>
    have h1 := isRes_iff.2 h1
    have h2 := has_false.2 h2
    refine ⟨customRes m 2, by simp [classFor, createResistor, h1], ?_, List.Perm.refl _, ?_⟩
    · rw [terminalList, if_pos h1]
      exact termNames_two m
    · simp [mapParams, resistorParams, customRes, h1, h2]
  | tap h1 h2 =>
    have h1 := isRes_false.2 h1
    have h2 := has_iff.2 h2
    refine ⟨diode, by simp [classFor, createResistor, h1, h2], by simp [terminalList, h1, h2], by decide, ?_⟩
    simp [mapParams, resistorParams, diode, h2]
  | res h1 h2 =>
    have h1 := isRes_false.2 h1
    have h2 := has_false.2 h2
    refine ⟨resistor, by simp [classFor, createResistor, h1, h2], by simp [terminalList, h1, h2], by decide, ?_⟩
    simp [mapParams, resistorParams, resistor, h1, h2]
  | resBulk h1 h2 =>
    have h1 := isRes_false.2 h1
    have h2 := has_false.2 h2
    refine ⟨resistorBulk, by simp [classFor, createResistor, h1, h2], by simp [terminalList, h1, h2], by decide, ?_⟩
    simp [mapParams, resistorParams, resistorBulk, h1, h2]
  | ind2 =>
    refine ⟨customInd m 2, rfl, termsWithSub_three m, List.Perm.refl _, ?_⟩
    simp [mapParams, inductorParams, customInd]
  | ind3 =>
    refine ⟨customInd m 3, rfl, termsWithSub_four m, List.Perm.refl _, ?_⟩
    simp [mapParams, inductorParams, customInd]
  | diode h1 h2 h3 =>
    have h4 : has m "diodevdd" = false := has_false.2 fun h => h1 (h.of_infix (by decide))
    have h5 : has m "diodevss" = false := has_false.2 fun h => h1 (h.of_infix (by decide))
    have h1 := has_false.2 h1
    have h2 := has_false.2 h2
    have h3 := has_false.2 h3
    refine ⟨enDiode, by simp [classFor, createDiode, h1, h2, h3], by simp [terminalList, h2, h3, h4, h5], by decide, ?_⟩
    simp [mapParams, diodeParams, enDiode, h1, h2, h3]
  | diodevdd h =>
    have h1 : has m "diodev" = true := has_iff.2 (h.of_infix (by decide))
    have h := has_iff.2 h
    refine ⟨esd3, by simp [classFor, createDiode, h1], by simp [terminalList, h], by decide, ?_⟩
    simp [mapParams, diodeParams, esd3, h1]
  | diodevss h h2 =>
    have h1 : has m "diodev" = true := has_iff.2 (h.of_infix (by decide))
    have h := has_iff.2 h
    have h2 := has_false.2 h2
    refine ⟨esd3, by simp [classFor, createDiode, h1], by simp [terminalList, h, h2], by decide, ?_⟩
    simp [mapParams, diodeParams, esd3, h1]
  | schottky h h2 h3 =>
    have h := has_iff.2 h
    have h2 := has_false.2 h2
    have h3 := has_false.2 h3
    refine ⟨esd3, by simp [classFor, createDiode, h], by simp [terminalList, h, h2, h3], by decide, ?_⟩
    simp [mapParams, diodeParams, esd3, h]
  | nmoscl h h1 h2 =>
    have h4 : has m "diodevdd" = false := has_false.2 fun h => h1 (h.of_infix (by decide))
    have h5 : has m "diodevss" = false := has_false.2 fun h => h1 (h.of_infix (by decide))
    have h := has_iff.2 h
    have h1 := has_false.2 h1
    have h2 := has_false.2 h2
    refine ⟨esd2, by simp [classFor, createDiode, h, h1, h2], by simp [terminalList, h, h2, h4, h5], by decide, ?_⟩
    simp [mapParams, diodeParams, esd2, h, h1, h2]

theorem createClass_ok {ele : Ele} {m : Str} {n : Nat} {c : DeviceClass} (h : classFor ele m n = .ok c) :
    createClass ele m n = .ok { c with name := m } := by rw [createClass, h]; rfl

theorem connect_zip (pins nets : List Str) (h : pins.length = nets.length) :
    pins.zipIdx.map (fun t => (t.1, nets[t.2]?)) = (pins.zip nets).map (fun p => (p.1, some p.2)) := by
  refine List.ext_getElem (by simp [h]) fun i h1 h2 => ?_
  simp only [List.getElem_map, List.getElem_zipIdx, List.getElem_zip, Nat.zero_add, Prod.mk.injEq, true_and]
  exact List.getElem?_eq_getElem (by simpa [h] using h1)

/-- The classes known so far come from the elements of the schematic. -/
def From (all : List Element) (cs : List DeviceClass) : Prop :=
  ∀ c ∈ cs, ∃ e ∈ all, createClass e.ele e.model e.nets.length = .ok c

theorem createClass_name {ele : Ele} {m : Str} {n : Nat} {c : DeviceClass} (h : createClass ele m n = .ok c) :
    c.name = m := by
  rw [createClass] at h
  cases hc : classFor ele m n with
  | error x => rw [hc] at h; cases h
  | ok c' => rw [hc] at h; cases h; rfl

/-- One element with its class. -/
theorem processDevice_ok {all : List Element}
    (same : ∀ e ∈ all, ∀ e' ∈ all, e.model = e'.model → e.ele = e'.ele ∧ e.nets.length = e'.nets.length)
    {cs : List DeviceClass} (hf : From all cs) {e : Element} (he : e ∈ all) (hv : Valid e) :
    ∃ cs' d, processDevice cs e = .ok (cs', d) ∧ From all cs' ∧ ReadAs e d ∧
      d.params = mapParams e.ele e.model e.params := by
  obtain ⟨pins, hp, hl⟩ := hv
  obtain ⟨c, h1, h2, h3, h4⟩ := valid_class hp e.params
  rw [hl] at h1 h2
  have hc := createClass_ok h1
  have hconn : connectTerminals { c with name := e.model } (terminalList e.ele e.model e.nets.length) e.nets =
      .ok ((pins.zip e.nets).map (fun p => (p.1, some p.2))) := by
    rw [connectTerminals, h2, if_pos, connect_zip _ _ hl]
    rw [List.all_eq_true]
    intro t ht
    exact List.elem_eq_true_of_mem (h3.subset ht)
  have hset : setParams { c with name := e.model } (mapParams e.ele e.model e.params) =
      .ok (mapParams e.ele e.model e.params) := by
    rw [setParams, if_pos]
    rw [List.all_eq_true]
    intro t ht
    exact List.elem_eq_true_of_mem (h4 t ht)
  have hd : ReadAs e ⟨{ c with name := e.model }, e.name, (pins.zip e.nets).map (fun p => (p.1, some p.2)),
      mapParams e.ele e.model e.params⟩ := ⟨rfl, rfl, pins, hp, rfl, hl, h3⟩
  cases hfind : cs.find? fun c => c.name == e.model with
  | none =>
    refine ⟨cs ++ [{ c with name := e.model }], _, ?_, ?_, hd, rfl⟩
    · simp only [processDevice, hfind, hc, hconn, hset, bind, Except.bind, pure, Except.pure]
    · intro c' hc'
      rcases List.mem_append.1 hc' with h | h
      · exact hf c' h
      · obtain rfl := List.mem_singleton.1 h
        exact ⟨e, he, hc⟩
  | some c' =>
    obtain ⟨e', he', hce'⟩ := hf c' (List.mem_of_find?_eq_some hfind)
    have hn : c'.name = e.model := by simpa using List.find?_some hfind
    have hm : e.model = e'.model := hn.symm.trans (createClass_name hce')
    obtain ⟨s1, s2⟩ := same e he e' he' hm
    rw [← hm, ← s1, ← s2, hc] at hce'
    obtain rfl := Except.ok.inj hce'
    refine ⟨cs, _, ?_, hf, hd, rfl⟩
    simp only [processDevice, hfind, hconn, hset, bind, Except.bind, pure, Except.pure]

theorem readAll_ok {all : List Element}
    (same : ∀ e ∈ all, ∀ e' ∈ all, e.model = e'.model → e.ele = e'.ele ∧ e.nets.length = e'.nets.length) :
    ∀ (es : List Element) (cs : List DeviceClass), From all cs → (∀ e ∈ es, e ∈ all ∧ Valid e) →
      ∃ cs' ds, readAll cs es = .ok (cs', ds) ∧
        List.Forall₂ (fun e d => ReadAs e d ∧ d.params = mapParams e.ele e.model e.params) es ds
  | [], cs, _, _ => ⟨cs, [], rfl, .nil⟩
  | e :: es, cs, hf, hv => by
    obtain ⟨ha, he⟩ := hv e (by simp)
    obtain ⟨cs1, d, h1, hf1, hd⟩ := processDevice_ok same hf ha he
    obtain ⟨cs2, ds, h2, hds⟩ := readAll_ok same es cs1 hf1 fun x hx => hv x (by simp [hx])
    refine ⟨cs2, d :: ds, ?_, .cons hd hds⟩
    simp only [readAll, h1, h2, bind, Except.bind, pure, Except.pure]

/-! ### C131 -/

/-- **C131.** A schematic whose elements have a net for each of their pins is read without an exception. Each element becomes a
device of its model, with its nets at its pins in their order and no terminal left over. -/
theorem schematic_read (es : List Element) (hv : ∀ e ∈ es, Valid e)
    (same : ∀ e ∈ es, ∀ e' ∈ es, e.model = e'.model → e.ele = e'.ele ∧ e.nets.length = e'.nets.length) :
    ∃ cs ds, readAll [] es = .ok (cs, ds) ∧ List.Forall₂ ReadAs es ds := by
  obtain ⟨cs, ds, h, hf⟩ := readAll_ok same es [] (fun _ h => absurd h List.not_mem_nil) fun e he => ⟨he, hv e he⟩
  exact ⟨cs, ds, h, hf.imp fun _ _ h => h.1⟩

/-- The reading of pins is not ambiguous: an element of a given number of nets has one list of pins. -/
theorem pins_unique {ele : Ele} {m : Str} {p p' : List Str} (h : Pins ele m p) (h' : Pins ele m p')
    (hl : p.length = p'.length) : p = p' := by
  obtain ⟨_, _, h1, _⟩ := valid_class h fun _ => none
  obtain ⟨_, _, h2, _⟩ := valid_class h' fun _ => none
  rw [← h1, ← h2, hl]

/-- C131 needs a net for each pin: the third net of a capacitor that is no rfcmim is dropped without a word. -/
theorem third_net_lost (name m a b c : Str) (p : Params) (h1 : ¬ Has m "varicap") (h2 : ¬ Has m "rfcmim") :
    ∃ cs d, readAll [] [⟨.C, name, m, [a, b, c], p⟩] = .ok (cs, [d]) ∧
      d.conns = [("mim_top".toList, some a), ("mim_btm".toList, some b)] := by
  obtain ⟨cs, ds, h, hf⟩ := schematic_read [⟨.C, name, m, [a, b], p⟩]
    (by intro e he; obtain rfl := List.mem_singleton.1 he; exact ⟨_, .cap h1 h2, rfl⟩)
    (by intro e he e' he' _; obtain rfl := List.mem_singleton.1 he; obtain rfl := List.mem_singleton.1 he'; exact ⟨rfl, rfl⟩)
  have h1' := has_false.2 h1
  have h2' := has_false.2 h2
  have e1 : createClass .C m 3 = createClass .C m 2 := by
    simp only [createClass, classFor, createCapacitor, h1', Bool.false_eq_true, if_false, or_true, true_or, if_true]
  have e3 (cls : DeviceClass) : connectTerminals cls (terminalList .C m 3) [a, b, c] =
      connectTerminals cls (terminalList .C m 2) [a, b] := by
    simp only [terminalList, mimTerms, h1', h2', connectTerminals]
    rfl
  have e4 : readAll [] [⟨.C, name, m, [a, b, c], p⟩] = readAll [] [⟨.C, name, m, [a, b], p⟩] := by
    simp only [readAll, processDevice, List.find?_nil, List.length_cons, List.length_nil, Nat.zero_add, Nat.reduceAdd, e1, e3]
  cases hf with
  | cons hd hn =>
    cases hn
    obtain ⟨_, _, pins, hp, hc, hl, _⟩ := hd
    obtain rfl := pins_unique hp (.cap h1 h2) hl
    exact ⟨cs, _, e4.trans h, hc⟩

/-- C131 needs a net for each pin: a tap with a bulk net ends the run with an exception. -/
theorem tap_bulk_fails (name m a b c : Str) (p : Params) (h1 : ¬ PolyRes m) (h2 : Has m "tap") :
    readAll [] [⟨.R, name, m, [a, b, c], p⟩] = .error "RuntimeError" := by
  have h1 := isRes_false.2 h1
  have h2 := has_iff.2 h2
  simp [readAll, processDevice, createClass, classFor, createResistor, terminalList, connectTerminals, h1, h2, resistorBulk,
    bind, Except.bind, pure, Except.pure, Except.map]

/-- A schematic with a transistor, two capacitors of one model, a diode and a poly resistor. -/
def exSchematic : List Element :=
  [⟨.M, "M1".toList, "sg13_lv_nmos".toList, ["out", "in", "vss", "vss"].map String.toList, fun _ => none⟩,
    ⟨.C, "C1".toList, "cap_cmim".toList, ["out", "vss"].map String.toList, fun _ => none⟩,
    ⟨.C, "C2".toList, "cap_cmim".toList, ["in", "vss"].map String.toList, fun _ => none⟩,
    ⟨.D, "D1".toList, "diodevdd_2kv".toList, ["vdd", "pad", "vss"].map String.toList, fun _ => none⟩,
    ⟨.R, "R1".toList, "rsil".toList, ["in", "pad"].map String.toList, fun _ => none⟩]

/-- C131: the schematic meets the hypotheses. -/
theorem schematic_ex : (∀ e ∈ exSchematic, Valid e) ∧
    ∀ e ∈ exSchematic, ∀ e' ∈ exSchematic, e.model = e'.model → e.ele = e'.ele ∧ e.nets.length = e'.nets.length := by
  constructor
  · intro e he
    simp only [exSchematic, List.mem_cons, List.not_mem_nil, or_false] at he
    rcases he with rfl | rfl | rfl | rfl | rfl
    · exact ⟨_, .mos _, rfl⟩
    · exact ⟨_, .cap (by unfold Has; decide) (by unfold Has; decide), rfl⟩
    · exact ⟨_, .cap (by unfold Has; decide) (by unfold Has; decide), rfl⟩
    · exact ⟨_, .diodevdd (by unfold Has; decide), rfl⟩
    · exact ⟨_, .polyRes (by unfold PolyRes; decide) (by unfold Has; decide), rfl⟩
  · intro e he e' he'
    simp only [exSchematic, List.mem_cons, List.not_mem_nil, or_false] at he he'
    rcases he with rfl | rfl | rfl | rfl | rfl <;> rcases he' with rfl | rfl | rfl | rfl | rfl <;> decide

end Verif.Decks
