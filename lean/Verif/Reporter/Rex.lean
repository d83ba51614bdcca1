import Verif.Reporter.Props
import Verif.RRequest.Props

/-!
# The report of the resistor extraction (C80, C81)
-/

namespace Verif.Reporter

open Lvs (Pin Terminal Device)
open Shapes (Polygon Pt)
open RRequest (RTech NetRequest Request Conductor Via)
open TechInfo (IsLast)
open Exc

variable {σ : Type}

/-! ### Specification -/

/-- The marker of a node: a square around a point, and the box of a box. -/
def Marker : Loc → ℤ → ℤ → ℤ → ℤ → Prop
  | .point p, x1, y1, x2, y2 => x1 = p.1 - 5 ∧ y1 = p.2 - 5 ∧ x2 = p.1 + 5 ∧ y2 = p.2 + 5
  | .box a b c d, x1, y1, x2, y2 => x1 ≤ x2 ∧ y1 ≤ y2 ∧ ((x1 = a ∧ x2 = c) ∨ (x1 = c ∧ x2 = a)) ∧
      ((y1 = b ∧ y2 = d) ∨ (y1 = d ∧ y2 = b))
  | .unspecified, _, _, _, _ => False

/-- The middle of a node: the point, or the middle of the box up to half a unit. -/
def Middle : Loc → Pt → Prop
  | .point p, q => q = p
  | .box a b c d, q => (2 * q.1 = a + c ∨ 2 * q.1 + 1 = a + c) ∧ (2 * q.2 = b + d ∨ 2 * q.2 + 1 = b + d)
  | .unspecified, _ => False

/-- The events for a node: an entry with its name, net and layer and a marker at its location. -/
def NodeShown (cat : List String) (n : Node) (ev : List (Event σ)) : Prop :=
  ∃ x1 y1 x2 y2, Marker n.loc x1 y1 x2 y2 ∧
    ev = [.category (cat ++ [n.name ++ ", port net " ++ n.net ++ ", layer " ++ n.layer]),
          .items (cat ++ [n.name ++ ", port net " ++ n.net ++ ", layer " ++ n.layer]) [.box x1 y1 x2 y2]]

/-- The text of a resistance: in Ω with three digits, or in mΩ with six digits if it is less than one mΩ. -/
def OhmsText (t : Text) (x : ℚ) (s : String) : Prop :=
  (1 / 1000 ≤ x ∧ s = t.round3 x ++ " Ω") ∨ (x < 1 / 1000 ∧ s = t.round6 (1000 * x) ++ " mΩ")

/-- The events for an element: an entry that names its two nodes, their layers and the resistance, and an arrow from the
middle of one node to the middle of the other. -/
def ElementShown (t : Text) (nodes : List Node) (cat : List String) (e : Element) (ev : List (Event σ)) : Prop :=
  ∃ a b p q s, IsLast (fun n : Node => n.id = e.a) nodes a ∧ IsLast (fun n : Node => n.id = e.b) nodes b ∧
    Middle a.loc p ∧ Middle b.loc q ∧ OhmsText t e.resistance s ∧
    ev = [.category (cat ++ [a.name ++ " (" ++ a.layer ++ ") ↔︎ " ++ b.name ++ " (" ++ b.layer ++ "): " ++ s]),
          .items (cat ++ [a.name ++ " (" ++ a.layer ++ ") ↔︎ " ++ b.name ++ " (" ++ b.layer ++ "): " ++ s]) [.arrow p q]]

/-- The events for a network: its category, and below all nodes and then all elements in order. -/
def NetworkShown (t : Text) (n : Network) (ev : List (Event σ)) : Prop :=
  ∃ (ns es : List (List (Event σ))),
    List.Forall₂ (NodeShown ["[R] Extraction Result", "Networks", "Net " ++ n.net, "Nodes"]) n.nodes ns ∧
    List.Forall₂ (ElementShown t n.nodes ["[R] Extraction Result", "Networks", "Net " ++ n.net, "Elements"]) n.elements es ∧
    ev = [.category ["[R] Extraction Result", "Networks", "Net " ++ n.net],
          .category ["[R] Extraction Result", "Networks", "Net " ++ n.net, "Nodes"],
          .category ["[R] Extraction Result", "Networks", "Net " ++ n.net, "Elements"]] ++ ns.flatten ++ es.flatten

/-- A network can be shown: all its nodes have a location, and its elements connect nodes of the network. -/
def Showable (n : Network) : Prop :=
  (∀ k ∈ n.nodes, k.loc ≠ .unspecified) ∧
  ∀ e ∈ n.elements, (∃ k ∈ n.nodes, k.id = e.a) ∧ ∃ k ∈ n.nodes, k.id = e.b

/-! ### Auxiliary -/

theorem foldlM_ok_iff {α : Type} (f : Report σ → α → Except String (Report σ)) (Q : α → Prop)
    (hf : ∀ r a, (∃ r', f r a = .ok r') ↔ Q a) (l : List α) (r : Report σ) :
    (∃ r', l.foldlM f r = .ok r') ↔ ∀ a ∈ l, Q a := by
  induction l generalizing r with
  | nil => exact ⟨fun _ a ha => (by cases ha), fun _ => ⟨r, rfl⟩⟩
  | cons a l ih =>
    simp only [List.foldlM_cons, bind_ok]
    constructor
    · rintro ⟨r', r1, h1, h2⟩
      intro x hx
      rcases List.mem_cons.1 hx with rfl | hx
      · exact (hf r x).1 ⟨r1, h1⟩
      · exact (ih r1).1 ⟨r', h2⟩ x hx
    · intro h
      obtain ⟨r1, h1⟩ := (hf r a).2 (h a (by simp))
      obtain ⟨r', h2⟩ := (ih r1).2 (fun x hx => h x (by simp [hx]))
      exact ⟨r', r1, h1, h2⟩

theorem foldlM_events {α : Type} (f : Report σ → α → Except String (Report σ)) (P : α → List (Event σ) → Prop)
    (hf : ∀ r a r', f r a = .ok r' → ∃ ev, P a ev ∧ r'.events = r.events ++ ev ∧ r'.cached = r.cached) (l : List α)
    (r r' : Report σ) (h : l.foldlM f r = .ok r') :
    ∃ evs, List.Forall₂ P l evs ∧ r'.events = r.events ++ evs.flatten ∧ r'.cached = r.cached := by
  induction l generalizing r with
  | nil =>
    rw [List.foldlM_nil, pure_ok] at h
    subst h
    exact ⟨[], .nil, by simp, rfl⟩
  | cons a l ih =>
    rw [List.foldlM_cons, bind_ok] at h
    obtain ⟨r1, h1, h2⟩ := h
    obtain ⟨ev, hp, he, hc⟩ := hf r a r1 h1
    obtain ⟨evs, hps, hes, hcs⟩ := ih r1 h2
    exact ⟨ev :: evs, .cons hp hps, by rw [hes, he]; simp, hcs.trans hc⟩

theorem marker_ok (l : Loc) (b : ℤ × ℤ × ℤ × ℤ) (h : marker l = .ok b) :
    Marker l b.1 b.2.1 b.2.2.1 b.2.2.2 ∧ Middle l (center b) := by
  cases l with
  | point p =>
    obtain rfl := Except.ok.inj h
    refine ⟨⟨rfl, rfl, rfl, rfl⟩, ?_⟩
    unfold Middle center markerPoint
    refine Prod.ext ?_ ?_ <;> dsimp only <;> omega
  | box x1 y1 x2 y2 =>
    obtain rfl := Except.ok.inj h
    unfold Marker Middle center
    dsimp only
    omega
  | unspecified => cases h

theorem marker_iff (l : Loc) : (∃ b, marker l = .ok b) ↔ l ≠ .unspecified := by
  cases l with
  | point p => exact ⟨fun _ => by simp, fun _ => ⟨_, rfl⟩⟩
  | box => exact ⟨fun _ => by simp, fun _ => ⟨_, rfl⟩⟩
  | unspecified => exact ⟨fun ⟨b, h⟩ => (by cases h), fun h => absurd rfl h⟩

theorem outputShapes_events (r : Report σ) (p : List String) (s : List (Shape σ)) :
    (outputShapes r p s).events = r.events ++ [.category p, .items p s] := by
  simp [outputShapes, create]

theorem byId_get (nodes : List Node) (i : Nat) (n : Node) :
    (nodes.foldl (fun (d : Dict Nat Node) n => d.set n.id n) []).get? i = some n ↔
      IsLast (fun n : Node => n.id = i) nodes n := by
  have h : nodes.foldl (fun (d : Dict Nat Node) n => d.set n.id n) [] = Dict.ofList (nodes.map fun n => (n.id, n)) := by
    unfold Dict.ofList
    rw [List.foldl_map]
  rw [h, TechInfo.ofList_map, Option.map_id', TechInfo.find_last]
  exact IsLast.congr fun y => by simp

theorem byId_some (nodes : List Node) (i : Nat) :
    (∃ n, (nodes.foldl (fun (d : Dict Nat Node) n => d.set n.id n) []).get? i = some n) ↔ ∃ n ∈ nodes, n.id = i := by
  constructor
  · rintro ⟨n, h⟩
    rw [byId_get] at h
    exact ⟨n, h.mem, h.prop⟩
  · rintro ⟨n, hn, rfl⟩
    cases h : (nodes.foldl (fun (d : Dict Nat Node) n => d.set n.id n) []).get? n.id with
    | some m => exact ⟨m, rfl⟩
    | none =>
      exfalso
      have h' : nodes.foldl (fun (d : Dict Nat Node) n => d.set n.id n) [] = Dict.ofList (nodes.map fun n => (n.id, n)) := by
        unfold Dict.ofList
        rw [List.foldl_map]
      rw [h', TechInfo.ofList_map, Option.map_id', List.find?_eq_none] at h
      exact h n (List.mem_reverse.2 hn) (by simp)

theorem node_ok (cat : List String) (r : Report σ) (n : Node) :
    (∃ r', outputNode r cat n = .ok r') ↔ n.loc ≠ .unspecified := by
  rw [← marker_iff]
  simp only [outputNode, bind_ok, pure_ok]
  exact ⟨fun ⟨_, b, hb, _⟩ => ⟨b, hb⟩, fun ⟨b, hb⟩ => ⟨_, b, hb, rfl⟩⟩

theorem node_events (cat : List String) (r : Report σ) (n : Node) (r' : Report σ) (h : outputNode r cat n = .ok r') :
    ∃ ev, NodeShown cat n ev ∧ r'.events = r.events ++ ev ∧ r'.cached = r.cached := by
  simp only [outputNode, bind_ok, pure_ok] at h
  obtain ⟨b, hb, rfl⟩ := h
  exact ⟨_, ⟨_, _, _, _, (marker_ok _ _ hb).1, rfl⟩, outputShapes_events _ _ _, rfl⟩

theorem ohms_text (t : Text) (x : ℚ) : OhmsText t x (ohms t x) := by
  unfold OhmsText ohms
  by_cases h : x ≥ 1 / 1000
  · exact .inl ⟨h, by rw [if_pos h]⟩
  · exact .inr ⟨not_le.1 h, by rw [if_neg h, mul_comm]⟩

theorem element_ok (t : Text) (nodes : List Node) (hloc : ∀ k ∈ nodes, k.loc ≠ .unspecified) (cat : List String)
    (r : Report σ) (e : Element) :
    (∃ r', outputElement t (nodes.foldl (fun (d : Dict Nat Node) n => d.set n.id n) []) cat r e = .ok r') ↔
      (∃ k ∈ nodes, k.id = e.a) ∧ ∃ k ∈ nodes, k.id = e.b := by
  rw [← byId_some, ← byId_some]
  simp only [outputElement, bind_ok, pure_ok, elim_ok]
  constructor
  · rintro ⟨_, a, ha, b, hb, _⟩
    exact ⟨⟨a, ha⟩, b, hb⟩
  · rintro ⟨⟨a, ha⟩, b, hb⟩
    obtain ⟨ma, hma⟩ := (marker_iff _).2 (hloc a ((byId_get _ _ _).1 ha).mem)
    obtain ⟨mb, hmb⟩ := (marker_iff _).2 (hloc b ((byId_get _ _ _).1 hb).mem)
    exact ⟨_, a, ha, b, hb, ma, hma, mb, hmb, rfl⟩

theorem element_events (t : Text) (nodes : List Node) (cat : List String) (r : Report σ) (e : Element) (r' : Report σ)
    (h : outputElement t (nodes.foldl (fun (d : Dict Nat Node) n => d.set n.id n) []) cat r e = .ok r') :
    ∃ ev, ElementShown t nodes cat e ev ∧ r'.events = r.events ++ ev ∧ r'.cached = r.cached := by
  simp only [outputElement, bind_ok, pure_ok, elim_ok] at h
  obtain ⟨a, ha, b, hb, ma, hma, mb, hmb, rfl⟩ := h
  exact ⟨_, ⟨a, b, _, _, _, (byId_get _ _ _).1 ha, (byId_get _ _ _).1 hb, (marker_ok _ _ hma).2, (marker_ok _ _ hmb).2,
    ohms_text t _, rfl⟩, outputShapes_events _ _ _, rfl⟩

theorem cached_events (r : Report σ) (p : List String) :
    (cachedCat r p).events = r.events ++ (if p ∈ r.cached then [] else [.category p]) ∧
    p ∈ (cachedCat r p).cached ∧ ∀ q ∈ r.cached, q ∈ (cachedCat r p).cached := by
  unfold cachedCat
  by_cases h : p ∈ r.cached
  · simp [h]
  · simp only [if_neg h]
    refine ⟨rfl, List.mem_cons_self, fun q hq => List.mem_cons_of_mem _ hq⟩

theorem cached_same (r : Report σ) (p : List String) (h : p ∈ r.cached) : cachedCat r p = r := by
  unfold cachedCat; rw [if_pos h]

/-- The report before the nodes of a network. -/
def opened (r : Report σ) (net : String) : Report σ :=
  let p2 := ["[R] Extraction Result"] ++ ["Networks"] ++ ["Net " ++ net]
  create (create (create (cachedCat (cachedCat r ["[R] Extraction Result"]) (["[R] Extraction Result"] ++ ["Networks"])) p2)
    (p2 ++ ["Nodes"])) (p2 ++ ["Elements"])

theorem network_ok (t : Text) (r : Report σ) (n : Network) : (∃ r', outputNetwork t r n = .ok r') ↔ Showable n := by
  unfold outputNetwork Showable
  simp only [bind_ok]
  constructor
  · rintro ⟨r', r1, h1, h2⟩
    have hl := (foldlM_ok_iff _ _ (node_ok _) n.nodes _).1 ⟨r1, h1⟩
    exact ⟨hl, (foldlM_ok_iff _ _ (element_ok t n.nodes hl _) n.elements _).1 ⟨r', h2⟩⟩
  · rintro ⟨hl, he⟩
    obtain ⟨r1, h1⟩ := (foldlM_ok_iff _ _ (node_ok (σ := σ) (["[R] Extraction Result"] ++ ["Networks"] ++ ["Net " ++ n.net] ++
      ["Nodes"])) n.nodes (opened r n.net)).2 hl
    obtain ⟨r', h2⟩ := (foldlM_ok_iff _ _ (element_ok t n.nodes hl (["[R] Extraction Result"] ++ ["Networks"] ++
      ["Net " ++ n.net] ++ ["Elements"])) n.elements r1).2 he
    exact ⟨r', r1, h1, h2⟩

theorem network_events (t : Text) (r : Report σ) (n : Network) (r' : Report σ) (h : outputNetwork t r n = .ok r') :
    ∃ pre ev, NetworkShown t n ev ∧ r'.events = r.events ++ pre ++ ev ∧
      (∀ e ∈ pre, e = .category ["[R] Extraction Result"] ∨ e = .category ["[R] Extraction Result", "Networks"]) ∧
      (["[R] Extraction Result"] ∈ r.cached → ["[R] Extraction Result", "Networks"] ∈ r.cached → pre = []) ∧
      ["[R] Extraction Result"] ∈ r'.cached ∧ ["[R] Extraction Result", "Networks"] ∈ r'.cached := by
  unfold outputNetwork at h
  simp only [bind_ok] at h
  obtain ⟨r1, h1, h2⟩ := h
  obtain ⟨ns, hn1, hn2, hn3⟩ := foldlM_events _ _ (node_events _) _ _ _ h1
  obtain ⟨es, he1, he2, he3⟩ := foldlM_events _ _ (element_events t n.nodes _) _ _ _ h2
  obtain ⟨c1, c2, c3⟩ := cached_events r ["[R] Extraction Result"]
  obtain ⟨d1, d2, d3⟩ := cached_events (cachedCat r ["[R] Extraction Result"]) (["[R] Extraction Result"] ++ ["Networks"])
  refine ⟨(if ["[R] Extraction Result"] ∈ r.cached then [] else [.category ["[R] Extraction Result"]]) ++
    (if ["[R] Extraction Result"] ++ ["Networks"] ∈ (cachedCat r ["[R] Extraction Result"]).cached then []
      else [.category (["[R] Extraction Result"] ++ ["Networks"])]), _, ⟨ns, es, hn1, he1, rfl⟩, ?_, ?_, ?_, ?_, ?_⟩
  · rw [he2, hn2]
    simp only [create, d1, c1]
    simp
  · intro e he
    rcases List.mem_append.1 he with he | he
    · split at he
      · cases he
      · exact .inl (List.mem_singleton.1 he)
    · split at he
      · cases he
      · exact .inr (List.mem_singleton.1 he)
  · intro g1 g2
    have g3 : ["[R] Extraction Result"] ++ ["Networks"] ∈ (cachedCat r ["[R] Extraction Result"]).cached := c3 _ g2
    rw [if_pos g1, if_pos g3]
    rfl
  · rw [he3, hn3]
    exact d3 _ c2
  · rw [he3, hn3]
    exact d2

/-! ### Theorems: the result -/

/-- **C80, when.** The result of the resistor extraction can be reported exactly if every node has a location and every
element connects nodes of its network. -/
theorem result_reported_iff (t : Text) (r : Report σ) (ns : List Network) :
    (∃ r', outputResult t r ns = .ok r') ↔ ∀ n ∈ ns, Showable n :=
  foldlM_ok_iff _ _ (network_ok t) ns r

/-- **C80.** The report then shows every network with all its nodes at their locations and all its elements, in order,
named after their end nodes, with their resistance and an arrow between the nodes, and nothing else. -/
theorem result_shown (t : Text) (r : Report σ) (ns : List Network) (r' : Report σ) (h : outputResult t r ns = .ok r') :
    ∃ pre evs, List.Forall₂ (NetworkShown t) ns evs ∧ r'.events = r.events ++ pre ++ evs.flatten ∧
      ∀ e ∈ pre, e = .category ["[R] Extraction Result"] ∨ e = .category ["[R] Extraction Result", "Networks"] := by
  have rest : ∀ (ns : List Network) (r : Report σ), ["[R] Extraction Result"] ∈ r.cached →
      ["[R] Extraction Result", "Networks"] ∈ r.cached → ∀ r', outputResult t r ns = .ok r' →
      ∃ evs, List.Forall₂ (NetworkShown t) ns evs ∧ r'.events = r.events ++ evs.flatten := by
    intro ns
    induction ns with
    | nil =>
      intro r _ _ r' h
      unfold outputResult at h
      rw [List.foldlM_nil, pure_ok] at h
      subst h
      exact ⟨[], .nil, by simp⟩
    | cons n ns ih =>
      intro r g1 g2 r' h
      unfold outputResult at h
      rw [List.foldlM_cons, bind_ok] at h
      obtain ⟨r1, h1, h2⟩ := h
      obtain ⟨pre, ev, e1, e2, _, e4, e5, e6⟩ := network_events t r n r1 h1
      obtain ⟨evs, f1, f2⟩ := ih r1 e5 e6 r' h2
      refine ⟨ev :: evs, .cons e1 f1, ?_⟩
      rw [f2, e2, e4 g1 g2]
      simp
  cases ns with
  | nil =>
    unfold outputResult at h
    rw [List.foldlM_nil, pure_ok] at h
    subst h
    exact ⟨[], [], .nil, by simp, fun e he => (by cases he)⟩
  | cons n ns =>
    unfold outputResult at h
    rw [List.foldlM_cons, bind_ok] at h
    obtain ⟨r1, h1, h2⟩ := h
    obtain ⟨pre, ev, e1, e2, e3, _, e5, e6⟩ := network_events t r n r1 h1
    obtain ⟨evs, f1, f2⟩ := rest ns r1 e5 e6 r' h2
    refine ⟨pre, ev :: evs, .cons e1 f1, ?_, e3⟩
    rw [f2, e2]
    simp

/-! ### Specification: the request -/

/-- An entry with one thing in it. -/
def Entry (path : List String) (s : Shape σ) : List (Event σ) := [.category path, .items path [s]]

/-- The polygons of a region, with their nets. -/
def RegionShape (norm : List Pt → List Pt) (r : Shapes.RegionPb) : Shape σ :=
  .region (r.polygons.map fun p => ⟨norm (p.hull.map fun q => (q.x, q.y)), [], if p.net = "" then none else some p.net⟩)

/-- The entries of terminals: one for each layer. -/
def TerminalsShown (norm : List Pt → List Pt) (cat : List String) (ts : List Terminal) : List (Event σ) :=
  ts.flatMap fun s => s.regions.flatMap fun l =>
    Entry (cat ++ [s.name ++ ": net " ++ s.net ++ ", layer " ++ l.layer.canonical]) (RegionShape norm l.region)

/-- The entries of pins: a square around the label. -/
def PinsShown (cat : List String) (pins : List Pin) : List (Event σ) :=
  pins.flatMap fun q => .category (cat ++ [q.label ++ " (net " ++ q.net ++ " on layer " ++ q.layer.canonical ++ ")"]) ::
    Entry (cat ++ [q.label ++ " (net " ++ q.net ++ " on layer " ++ q.layer.canonical ++ ")", "label point"])
      (.box (q.point.1 - 5) (q.point.2 - 5) (q.point.1 + 5) (q.point.2 + 5))

/-- The entries of a device: its parameters and terminals. -/
def DeviceShown (t : Text) (norm : List Pt → List Pt) (d : Device) : List (Event σ) :=
  [.category ["[R] Extraction Request", "Devices", d.name ++ ": " ++ d.className],
   .category ["[R] Extraction Request", "Devices", d.name ++ ": " ++ d.className, "Params"]] ++
  (d.params.map fun q => .category ["[R] Extraction Request", "Devices", d.name ++ ": " ++ d.className, "Params",
    q.2.1 ++ ": " ++ t.num q.2.2]) ++
  [.category ["[R] Extraction Request", "Devices", d.name ++ ": " ++ d.className, "Terminals"]] ++
  TerminalsShown norm ["[R] Extraction Request", "Devices", d.name ++ ": " ++ d.className, "Terminals"] d.terminals

/-- The entries of a net: its pins, terminals and layers. -/
def NetShown (norm : List Pt → List Pt) (q : String × NetRequest) : List (Event σ) :=
  [.category ["[R] Extraction Request", "Network Extraction Request", "Net " ++ q.1],
   .category ["[R] Extraction Request", "Network Extraction Request", "Net " ++ q.1, "Pins"],
   .category ["[R] Extraction Request", "Network Extraction Request", "Net " ++ q.1, "Device Terminals"],
   .category ["[R] Extraction Request", "Network Extraction Request", "Net " ++ q.1, "Layer Regions"]] ++
  PinsShown ["[R] Extraction Request", "Network Extraction Request", "Net " ++ q.1, "Pins"] q.2.pins ++
  TerminalsShown norm ["[R] Extraction Request", "Network Extraction Request", "Net " ++ q.1, "Device Terminals"]
    q.2.terminals ++
  q.2.regions.flatMap fun l => Entry ["[R] Extraction Request", "Network Extraction Request", "Net " ++ q.1, "Layer Regions",
    "Layer " ++ l.layer.canonical] (RegionShape norm l.region)

/-- The entry of a via names the conductors with the ids of its bottom and top. -/
def ViaShown (t : Text) (cs : List Conductor) (v : Via) (e : Event σ) : Prop :=
  ∃ b a, IsLast (fun c : Conductor => c.layer.id = v.bottom) cs b ∧ IsLast (fun c : Conductor => c.layer.id = v.top) cs a ∧
    e = .category ["[R] Extraction Request", "[R] Extraction Tech", "Vias", toString v.layer.id ++ ": " ++ v.layer.canonical ++
      " (LVS " ++ v.layer.lvsName ++ ", " ++ b.layer.canonical ++ "↔︎" ++ a.layer.canonical ++ "), " ++ t.round3 v.resistance ++
      " mΩ/µm^2"]

/-- The entry of a conductor. -/
def ConductorShown (t : Text) (c : Conductor) : Event σ :=
  .category ["[R] Extraction Request", "[R] Extraction Tech", "Conductors", toString c.layer.id ++ ": " ++ c.layer.canonical ++
    " (LVS " ++ c.layer.lvsName ++ "), " ++ t.round3 c.resistance ++ " mΩ/µm^2"]

/-- A via can be shown: its bottom and top are declared conductors. -/
def Joined (x : RTech) (v : Via) : Prop :=
  (∃ c ∈ x.conductors, c.layer.id = v.bottom) ∧ ∃ c ∈ x.conductors, c.layer.id = v.top

/-- The report before the request: none of the categories of a request exists yet. -/
def Unreported (r : Report σ) : Prop :=
  ["[R] Extraction Request"] ∉ r.cached ∧ ["[R] Extraction Request", "[R] Extraction Tech"] ∉ r.cached ∧
  ["[R] Extraction Request", "Devices"] ∉ r.cached ∧ ["[R] Extraction Request", "Pins"] ∉ r.cached ∧
  ["[R] Extraction Request", "Network Extraction Request"] ∉ r.cached

/-! ### Auxiliary: the request -/

theorem foldl_events {α : Type} (f : Report σ → α → Report σ) (g : α → List (Event σ))
    (hf : ∀ r a, (f r a).events = r.events ++ g a ∧ (f r a).cached = r.cached) (l : List α) (r : Report σ) :
    (l.foldl f r).events = r.events ++ l.flatMap g ∧ (l.foldl f r).cached = r.cached := by
  induction l generalizing r with
  | nil => exact ⟨by simp, rfl⟩
  | cons a l ih =>
    rw [List.foldl_cons, (ih _).1, (ih _).2, (hf r a).1, (hf r a).2]
    exact ⟨by simp, rfl⟩

theorem region_shape (norm : List Pt → List Pt) (x : Shapes.RegionPb) :
    (Shape.region (Shapes.klayoutRegion norm x) : Shape σ) = RegionShape norm x := by
  unfold RegionShape Shapes.klayoutRegion
  congr 1
  have key : ∀ (l : List Shapes.PolygonPb) (acc : List Polygon),
      l.foldl (fun acc p => acc ++ [Shapes.klayoutPolygon norm p]) acc = acc ++ l.map (Shapes.klayoutPolygon norm) := by
    intro l
    induction l with
    | nil => simp
    | cons a l ih => intro acc; rw [List.foldl_cons, ih]; simp
  rw [key]
  rw [List.nil_append]
  refine List.map_congr_left fun p _ => ?_
  have hpt : (fun q : Shapes.PointPb => (q.x, q.y)) = Shapes.klayoutPoint := rfl
  rw [hpt]
  unfold Shapes.klayoutPolygon
  by_cases h : p.net = ""
  · simp [h]
  · have : 1 ≤ p.net.length := by
      rcases Nat.eq_zero_or_pos p.net.length with h' | h'
      · exact absurd (String.length_eq_zero_iff.1 h') h
      · exact h'
    rw [if_neg h]
    simp [this]

theorem terminals_events (norm : List Pt → List Pt) (r : Report σ) (ts : List Terminal) (cat : List String) :
    (outputTerminals norm r ts cat).events = r.events ++ TerminalsShown norm cat ts ∧
    (outputTerminals norm r ts cat).cached = r.cached := by
  unfold outputTerminals TerminalsShown
  refine foldl_events _ _ (fun r s => ?_) ts r
  refine foldl_events _ _ (fun r l => ?_) s.regions r
  refine ⟨?_, rfl⟩
  rw [outputShapes_events, region_shape]
  rfl

theorem pins_events (r : Report σ) (pins : List Pin) (cat : List String) :
    (outputPins r pins cat).events = r.events ++ PinsShown cat pins ∧ (outputPins r pins cat).cached = r.cached := by
  unfold outputPins PinsShown
  refine foldl_events _ _ (fun r q => ?_) pins r
  refine ⟨?_, rfl⟩
  simp only [outputShapes_events, create, Entry, markerPoint]
  simp

theorem device_events (t : Text) (norm : List Pt → List Pt) (r : Report σ) (d : Device) (h : ["[R] Extraction Request"] ∈ r.cached) :
    (outputDevice t norm r d).events = r.events ++ (if ["[R] Extraction Request", "Devices"] ∈ r.cached then [] else
      [.category ["[R] Extraction Request", "Devices"]]) ++ DeviceShown t norm d ∧
    (outputDevice t norm r d).cached = (cachedCat r ["[R] Extraction Request", "Devices"]).cached := by
  unfold outputDevice DeviceShown
  dsimp only
  rw [cached_same r _ h, (terminals_events ..).1, (terminals_events ..).2]
  simp only [create]
  have hp := foldl_events (σ := σ) (fun r (q : Nat × String × ℚ) => create r (["[R] Extraction Request", "Devices"] ++
    [d.name ++ ": " ++ d.className] ++ ["Params", q.2.1 ++ ": " ++ t.num q.2.2])) (fun q => [.category
    (["[R] Extraction Request", "Devices"] ++ [d.name ++ ": " ++ d.className] ++ ["Params", q.2.1 ++ ": " ++ t.num q.2.2])])
    (fun r q => ⟨rfl, rfl⟩) d.params
  simp only [create] at hp
  rw [(hp _).1, (hp _).2]
  refine ⟨?_, rfl⟩
  rw [(cached_events r ["[R] Extraction Request", "Devices"]).1]
  simp [List.map_eq_flatMap]

theorem devices_events (t : Text) (norm : List Pt → List Pt) (ds : List Device) (r : Report σ)
    (h : ["[R] Extraction Request"] ∈ r.cached) :
    (ds.foldl (outputDevice t norm) r).events = r.events ++ (if ds = [] ∨ ["[R] Extraction Request", "Devices"] ∈ r.cached
      then [] else [.category ["[R] Extraction Request", "Devices"]]) ++ ds.flatMap (DeviceShown t norm) ∧
    (ds.foldl (outputDevice t norm) r).cached =
      if ds = [] then r.cached else (cachedCat r ["[R] Extraction Request", "Devices"]).cached := by
  induction ds generalizing r with
  | nil => simp
  | cons d ds ih =>
    obtain ⟨e1, e2⟩ := device_events t norm r d h
    obtain ⟨_, c2, c3⟩ := cached_events r ["[R] Extraction Request", "Devices"]
    have hin : ["[R] Extraction Request", "Devices"] ∈ (outputDevice t norm r d).cached := by rw [e2]; exact c2
    obtain ⟨i1, i2⟩ := ih (outputDevice t norm r d) (by rw [e2]; exact c3 _ h)
    rw [List.foldl_cons, i1, i2, if_pos (.inr hin), e1]
    constructor
    · simp
    · rw [cached_same _ _ hin, e2, ite_self, if_neg (List.cons_ne_nil _ _)]

theorem net_events (norm : List Pt → List Pt) (r : Report σ) (q : String × NetRequest)
    (h : ["[R] Extraction Request"] ∈ r.cached) :
    (outputNetRequest norm r q).events = r.events ++ (if ["[R] Extraction Request", "Network Extraction Request"] ∈ r.cached
      then [] else [.category ["[R] Extraction Request", "Network Extraction Request"]]) ++ NetShown norm q ∧
    (outputNetRequest norm r q).cached = (cachedCat r ["[R] Extraction Request", "Network Extraction Request"]).cached := by
  unfold outputNetRequest NetShown
  dsimp only
  rw [cached_same r _ h]
  have hl := foldl_events (σ := σ) (fun r (l : Lvs.LayerRegion) => outputShapes r
    (["[R] Extraction Request", "Network Extraction Request"] ++ ["Net " ++ q.1] ++ ["Layer Regions", "Layer " ++
    l.layer.canonical]) [.region (Shapes.klayoutRegion norm l.region)]) (fun l => Entry
    (["[R] Extraction Request", "Network Extraction Request"] ++ ["Net " ++ q.1] ++ ["Layer Regions", "Layer " ++
    l.layer.canonical]) (RegionShape norm l.region))
    (fun r l => by
      refine ⟨?_, rfl⟩
      rw [outputShapes_events, region_shape]
      rfl) q.2.regions
  rw [(hl _).1, (hl _).2, (terminals_events ..).1, (terminals_events ..).2, (pins_events ..).1, (pins_events ..).2]
  refine ⟨?_, rfl⟩
  simp only [create]
  rw [(cached_events r ["[R] Extraction Request", "Network Extraction Request"]).1]
  simp

theorem nets_events (norm : List Pt → List Pt) (qs : List (String × NetRequest)) (r : Report σ)
    (h : ["[R] Extraction Request"] ∈ r.cached) :
    (qs.foldl (outputNetRequest norm) r).events = r.events ++ (if qs = [] ∨
      ["[R] Extraction Request", "Network Extraction Request"] ∈ r.cached then [] else
      [.category ["[R] Extraction Request", "Network Extraction Request"]]) ++ qs.flatMap (NetShown norm) := by
  induction qs generalizing r with
  | nil => simp
  | cons d ds ih =>
    obtain ⟨e1, e2⟩ := net_events norm r d h
    obtain ⟨_, c2, c3⟩ := cached_events r ["[R] Extraction Request", "Network Extraction Request"]
    have hin : ["[R] Extraction Request", "Network Extraction Request"] ∈ (outputNetRequest norm r d).cached := by
      rw [e2]; exact c2
    have i1 := ih (outputNetRequest norm r d) (by rw [e2]; exact c3 _ h)
    rw [List.foldl_cons, i1, if_pos (.inr hin), e1]
    simp

theorem layerById_get (cs : List Conductor) (i : Nat) (l : Lvs.LayerRef) :
    (cs.foldl (fun (d : Dict Nat Lvs.LayerRef) c => d.set c.layer.id c.layer) []).get? i = some l ↔
      ∃ c, IsLast (fun c : Conductor => c.layer.id = i) cs c ∧ l = c.layer := by
  have h : cs.foldl (fun (d : Dict Nat Lvs.LayerRef) c => d.set c.layer.id c.layer) [] =
      Dict.ofList (cs.map fun c => (c.layer.id, c.layer)) := by
    unfold Dict.ofList
    rw [List.foldl_map]
  rw [h, TechInfo.ofList_map_some]
  exact exists_congr fun c => and_congr_right fun _ => eq_comm

theorem last_exists (cs : List Conductor) (i : Nat) :
    (∃ c, IsLast (fun c : Conductor => c.layer.id = i) cs c) ↔ ∃ c ∈ cs, c.layer.id = i := by
  constructor
  · rintro ⟨c, h⟩
    exact ⟨c, h.mem, h.prop⟩
  · rintro ⟨c, hc, rfl⟩
    cases h : cs.reverse.find? (fun x => decide (x.layer.id = c.layer.id)) with
    | some m =>
      rw [TechInfo.find_last] at h
      exact ⟨m, IsLast.congr (fun y => by simp) |>.1 h⟩
    | none =>
      rw [List.find?_eq_none] at h
      exact absurd (by simp) (h c (List.mem_reverse.2 hc))

/-- The report of one via, extraction_reporter.py 331–339. -/
def viaStep (t : Text) (cs : List Conductor) (r : Report σ) (v : Via) : Except String (Report σ) := do
  let byId : Dict Nat Lvs.LayerRef := cs.foldl (fun d c => d.set c.layer.id c.layer) []
  let bot ← (byId.get? v.bottom).elim (.error "KeyError") .ok
  let top ← (byId.get? v.top).elim (.error "KeyError") .ok
  return create r (["[R] Extraction Request", "[R] Extraction Tech"] ++ ["Vias", toString v.layer.id ++ ": " ++ v.layer.canonical ++
    " (LVS " ++ v.layer.lvsName ++ ", " ++ bot.canonical ++ "↔︎" ++ top.canonical ++ "), " ++ t.round3 v.resistance ++
    " mΩ/µm^2"])

theorem viaStep_ok (t : Text) (x : RTech) (r : Report σ) (v : Via) :
    (∃ r', viaStep t x.conductors r v = .ok r') ↔ Joined x v := by
  unfold Joined
  rw [← last_exists, ← last_exists]
  simp only [viaStep, bind_ok, pure_ok, elim_ok, layerById_get]
  constructor
  · rintro ⟨_, _, ⟨b, hb, _⟩, _, ⟨a, ha, _⟩, _⟩
    exact ⟨⟨b, hb⟩, a, ha⟩
  · rintro ⟨⟨b, hb⟩, a, ha⟩
    exact ⟨_, _, ⟨b, hb, rfl⟩, _, ⟨a, ha, rfl⟩, rfl⟩

theorem viaStep_events (t : Text) (cs : List Conductor) (r : Report σ) (v : Via) (r' : Report σ)
    (h : viaStep t cs r v = .ok r') :
    ∃ ev, (∃ e, ViaShown t cs v e ∧ ev = [e]) ∧ r'.events = r.events ++ ev ∧ r'.cached = r.cached := by
  simp only [viaStep, bind_ok, pure_ok, elim_ok, layerById_get] at h
  obtain ⟨_, ⟨b, hb, rfl⟩, _, ⟨a, ha, rfl⟩, rfl⟩ := h
  exact ⟨_, ⟨_, ⟨b, a, hb, ha, rfl⟩, rfl⟩, rfl, rfl⟩

theorem forall₂_singles {α β : Type} (P : α → β → Prop) (l : List α) (m : List (List β))
    (h : List.Forall₂ (fun a ev => ∃ e, P a e ∧ ev = [e]) l m) : List.Forall₂ P l m.flatten := by
  induction h with
  | nil => exact .nil
  | cons h _ ih =>
    obtain ⟨e, he, rfl⟩ := h
    exact .cons he ih

theorem outputTech_eq (t : Text) (r : Report σ) (x : RTech) :
    outputTech t r x = x.vias.foldlM (viaStep t x.conductors) (x.conductors.foldl (fun r c => create r
      (["[R] Extraction Request", "[R] Extraction Tech"] ++ ["Conductors", toString c.layer.id ++ ": " ++ c.layer.canonical ++
    " (LVS " ++ c.layer.lvsName ++ "), " ++ t.round3 c.resistance ++ " mΩ/µm^2"]))
      (create (create (create (cachedCat (cachedCat r ["[R] Extraction Request"])
        ["[R] Extraction Request", "[R] Extraction Tech"])
        (["[R] Extraction Request", "[R] Extraction Tech"] ++ ["Skip simplify: " ++ if x.skipSimplify then "True" else "False"]))
        (["[R] Extraction Request", "[R] Extraction Tech"] ++ ["Conductors"]))
        (["[R] Extraction Request", "[R] Extraction Tech"] ++ ["Vias"]))) := rfl

theorem tech_ok (t : Text) (r : Report σ) (x : RTech) :
    (∃ r', outputTech t r x = .ok r') ↔ ∀ v ∈ x.vias, Joined x v := by
  rw [outputTech_eq]
  exact foldlM_ok_iff _ _ (viaStep_ok t x) _ _

theorem tech_events (t : Text) (r : Report σ) (hr : Unreported r) (x : RTech) (r' : Report σ) (h : outputTech t r x = .ok r') :
    ∃ vs, List.Forall₂ (ViaShown t x.conductors) x.vias vs ∧
      r'.events = r.events ++ [.category ["[R] Extraction Request"],
        .category ["[R] Extraction Request", "[R] Extraction Tech"],
        .category ["[R] Extraction Request", "[R] Extraction Tech", "Skip simplify: " ++ if x.skipSimplify then "True" else "False"],
        .category ["[R] Extraction Request", "[R] Extraction Tech", "Conductors"],
        .category ["[R] Extraction Request", "[R] Extraction Tech", "Vias"]] ++
        x.conductors.map (ConductorShown t) ++ vs ∧
      ["[R] Extraction Request"] ∈ r'.cached ∧
      (∀ p, p ∈ r'.cached → p = ["[R] Extraction Request"] ∨ p = ["[R] Extraction Request", "[R] Extraction Tech"] ∨
        p ∈ r.cached) := by
  rw [outputTech_eq] at h
  obtain ⟨vs, h1, h2, h3⟩ := foldlM_events _ _ (viaStep_events t x.conductors) _ _ _ h
  have hc := foldl_events (σ := σ) (fun r (c : Conductor) => create r
      (["[R] Extraction Request", "[R] Extraction Tech"] ++ ["Conductors", toString c.layer.id ++ ": " ++ c.layer.canonical ++
    " (LVS " ++ c.layer.lvsName ++ "), " ++ t.round3 c.resistance ++ " mΩ/µm^2"])) (fun c => [ConductorShown t c])
    (fun r c => ⟨rfl, rfl⟩) x.conductors
  rw [(hc _).1] at h2
  rw [(hc _).2] at h3
  have e1 : cachedCat r ["[R] Extraction Request"] =
      { create r ["[R] Extraction Request"] with cached := ["[R] Extraction Request"] :: r.cached } := by
    unfold cachedCat; rw [if_neg hr.1]
  have hn : ["[R] Extraction Request", "[R] Extraction Tech"] ∉ (cachedCat r ["[R] Extraction Request"]).cached := by
    rw [e1]
    simp only [List.mem_cons, not_or]
    exact ⟨by decide, hr.2.1⟩
  have e2 : cachedCat (cachedCat r ["[R] Extraction Request"]) ["[R] Extraction Request", "[R] Extraction Tech"] =
      { create (cachedCat r ["[R] Extraction Request"]) ["[R] Extraction Request", "[R] Extraction Tech"] with
        cached := ["[R] Extraction Request", "[R] Extraction Tech"] :: (cachedCat r ["[R] Extraction Request"]).cached } := by
    rw [cachedCat, if_neg hn]
  refine ⟨vs.flatten, forall₂_singles _ _ _ h1, ?_, ?_, ?_⟩
  · rw [h2, e2, e1]
    simp [create, List.map_eq_flatMap]
  · rw [h3, e2, e1]
    simp [create]
  · rw [h3, e2, e1]
    simp only [create, List.mem_cons]
    tauto

/-! ### Theorems: the request -/

/-- **C81, when.** The request of the resistor extraction can be reported exactly if the layers below and above every via
are conductors of the request; otherwise the run ends. -/
theorem request_reported_iff (t : Text) (norm : List Pt → List Pt) (r : Report σ) (q : Request) :
    (∃ r', outputRequest t norm r q = .ok r') ↔ ∀ v ∈ q.tech.vias, Joined q.tech v := by
  rw [← tech_ok t r]
  unfold outputRequest
  simp only [bind_ok, pure_ok]
  exact ⟨fun ⟨_, r1, h1, _⟩ => ⟨r1, h1⟩, fun ⟨r1, h1⟩ => ⟨_, r1, h1, rfl⟩⟩

/-- **C81.** The report shows every conductor, via, device, pin and net of the request, in order, with all parameters,
terminals and shapes, and nothing else. -/
theorem request_shown_partial (t : Text) (norm : List Pt → List Pt) (r : Report σ) (hr : Unreported r) (q : Request) (r' : Report σ)
    (h : outputRequest t norm r q = .ok r') :
    ∃ vs, List.Forall₂ (ViaShown t q.tech.conductors) q.tech.vias vs ∧
      r'.events = r.events ++ [.category ["[R] Extraction Request"],
        .category ["[R] Extraction Request", "[R] Extraction Tech"],
        .category ["[R] Extraction Request", "[R] Extraction Tech",
          "Skip simplify: " ++ if q.tech.skipSimplify then "True" else "False"],
        .category ["[R] Extraction Request", "[R] Extraction Tech", "Conductors"],
        .category ["[R] Extraction Request", "[R] Extraction Tech", "Vias"]] ++
        q.tech.conductors.map (ConductorShown t) ++ vs ++
        (if q.devices = [] then [] else [.category ["[R] Extraction Request", "Devices"]]) ++
        q.devices.flatMap (DeviceShown t norm) ++
        [.category ["[R] Extraction Request", "Pins"]] ++ PinsShown ["[R] Extraction Request", "Pins"] q.pins ++
        (if q.nets = [] then [] else [.category ["[R] Extraction Request", "Network Extraction Request"]]) ++
        List.flatMap (NetShown norm) q.nets := by
  unfold outputRequest at h
  simp only [bind_ok, pure_ok] at h
  obtain ⟨r1, h1, rfl⟩ := h
  obtain ⟨vs, a1, a2, a3, a4⟩ := tech_events t r hr q.tech r1 h1
  obtain ⟨b1, b2⟩ := devices_events t norm q.devices r1 a3
  have notin : ∀ p, p ≠ ["[R] Extraction Request"] → p ≠ ["[R] Extraction Request", "[R] Extraction Tech"] → p ∉ r.cached →
      p ∉ r1.cached := by
    intro p g1 g2 g3 g4
    rcases a4 p g4 with h | h | h
    · exact g1 h
    · exact g2 h
    · exact g3 h
  have d1 := notin _ (by decide) (by decide) hr.2.2.1
  have p1 := notin _ (by decide) (by decide) hr.2.2.2.1
  have n1 := notin _ (by decide) (by decide) hr.2.2.2.2
  -- the report after the devices
  have hc2 : ∀ p, p ∈ (q.devices.foldl (outputDevice t norm) r1).cached ↔
      p ∈ r1.cached ∨ (q.devices ≠ [] ∧ p = ["[R] Extraction Request", "Devices"]) := by
    intro p
    rw [b2]
    by_cases hd : q.devices = []
    · simp [hd]
    · rw [if_neg hd, cachedCat, if_neg d1]
      simp only [List.mem_cons]
      tauto
  generalize hr2 : q.devices.foldl (outputDevice t norm) r1 = r2 at *
  have c1 : ["[R] Extraction Request"] ∈ r2.cached := (hc2 _).2 (.inl a3)
  have p2 : ["[R] Extraction Request", "Pins"] ∉ r2.cached := by
    rw [hc2]; rintro (h | ⟨_, h⟩)
    · exact p1 h
    · exact absurd h (by decide)
  have n2 : ["[R] Extraction Request", "Network Extraction Request"] ∉ r2.cached := by
    rw [hc2]; rintro (h | ⟨_, h⟩)
    · exact n1 h
    · exact absurd h (by decide)
  rw [cached_same r2 _ c1]
  have e3 : cachedCat r2 ["[R] Extraction Request", "Pins"] =
      { create r2 ["[R] Extraction Request", "Pins"] with cached := ["[R] Extraction Request", "Pins"] :: r2.cached } := by
    unfold cachedCat; rw [if_neg p2]
  obtain ⟨g1, g2⟩ := pins_events (cachedCat r2 ["[R] Extraction Request", "Pins"]) q.pins ["[R] Extraction Request", "Pins"]
  have hc3 : ∀ p, p ∈ (outputPins (cachedCat r2 ["[R] Extraction Request", "Pins"]) q.pins
      ["[R] Extraction Request", "Pins"]).cached ↔ p = ["[R] Extraction Request", "Pins"] ∨ p ∈ r2.cached := by
    intro p; rw [g2, e3]; simp only [List.mem_cons]
  have k1 := nets_events norm q.nets _ ((hc3 _).2 (.inr c1))
  refine ⟨vs, a1, ?_⟩
  have i1 : (if q.devices = [] ∨ ["[R] Extraction Request", "Devices"] ∈ r1.cached then ([] : List (Event σ)) else
      [.category ["[R] Extraction Request", "Devices"]]) =
      if q.devices = [] then [] else [.category ["[R] Extraction Request", "Devices"]] := by
    by_cases hd : q.devices = []
    · rw [if_pos hd, if_pos (.inl hd)]
    · rw [if_neg hd, if_neg (by rintro (h | h) <;> contradiction)]
  have n3 : ["[R] Extraction Request", "Network Extraction Request"] ∉ (outputPins
      (cachedCat r2 ["[R] Extraction Request", "Pins"]) q.pins ["[R] Extraction Request", "Pins"]).cached := by
    rw [hc3]; rintro (h | h)
    · exact absurd h (by decide)
    · exact n2 h
  have i2 : ∀ c : List (List String), ["[R] Extraction Request", "Network Extraction Request"] ∉ c →
      (if q.nets = [] ∨ ["[R] Extraction Request", "Network Extraction Request"] ∈ c then ([] : List (Event σ)) else
      [.category ["[R] Extraction Request", "Network Extraction Request"]]) =
      if q.nets = [] then [] else [.category ["[R] Extraction Request", "Network Extraction Request"]] := by
    intro c hc
    by_cases hd : q.nets = []
    · rw [if_pos hd, if_pos (.inl hd)]
    · rw [if_neg hd, if_neg (by rintro (h | h) <;> contradiction)]
  rw [k1, i2 _ n3, g1, e3]
  simp only [create]
  rw [b1, a2, i1]

/-- **C81 fails for vias outside the process stack**: if the technology knows the resistance of a via layer but the process
stack has no contact of its name, the run ends with an error when the request is reported, unless the first layer of the
layout happens to be a conductor. -/
theorem via_outside_stack (t : TechInfo.Tech) (bb : Bool) (db : List Lvs.DbLayer) (hd : (db.map (·.index)).Nodup)
    (v : Lvs.Env) (cfg : RRequest.Config) (q : Request) (h : RRequest.prepareTech (Lvs.prepare t bb db) v cfg = .ok q.tech)
    (s : Lvs.ExtractedLayer) (hs : Lvs.Source t bb db s) (hv : ∀ c, Lvs.KnownPair t s.pair c → c.info.purpose = .via)
    (hr : RRequest.IsVia t s) (hn : ∀ l ∈ t.stack, ∀ k, RRequest.metalContact l = some k → k.name ≠ s.name)
    (h0 : ∀ c ∈ q.tech.conductors, c.layer.id ≠ 0) (x : Text) (norm : List Pt → List Pt) (r : Report σ) :
    ¬ ∃ r', outputRequest x norm r q = .ok r' := by
  rw [request_reported_iff]
  intro hall
  obtain ⟨_, _, srcs, h1, _, h3⟩ := RRequest.tech_exact_partial t bb db hd v cfg q.tech h
  obtain ⟨i, hi, e⟩ := List.getElem_of_mem ((h1 s).2 ⟨hs, hr⟩)
  have hlen := h3.length_eq
  have hf := (List.forall₂_iff_get.1 h3).2 i hi (by omega)
  simp only [List.get_eq_getElem] at hf
  rw [e] at hf
  obtain ⟨c, hc, _, hvia⟩ := hf
  rcases hvia (hv c hc) with ⟨k, w, ρ, hk, _⟩ | ⟨_, hu⟩
  · have hm := hk.mem
    obtain ⟨l, hl, hlk⟩ := List.mem_filterMap.1 hm
    exact hn l hl k hlk hk.prop
  · have hj := hall (q.tech.vias[i]'(by omega)) (List.getElem_mem _)
    rw [hu] at hj
    obtain ⟨c', hc', e'⟩ := hj.1
    exact h0 c' hc' e'

/-! ### Concrete cases -/

/-- Two metals and a via between them; `stack` describes the contacts. -/
def exViaTech (stack : List TechInfo.StackLayer) : TechInfo.Tech :=
  { layers := [{ purpose := .metal, name := "met1", drw := (68, 20) }, { purpose := .metal, name := "met2", drw := (69, 20) },
      { purpose := .via, name := "via", drw := (68, 44) }]
    computed := [{ kind := .regular, info := { purpose := .metal, name := "met1_con", drw := (68, 20) }, original := "met1" },
      { kind := .regular, info := { purpose := .metal, name := "met2_con", drw := (69, 20) }, original := "met2" },
      { kind := .regular, info := { purpose := .via, name := "via1", drw := (68, 44) }, original := "via" }]
    stack := stack
    parasitics := { layerResistances := [⟨"met1", 125⟩, ⟨"met2", 125⟩], viaResistances := [⟨"via", 4500⟩] } }

def exViaDb : List Lvs.DbLayer :=
  [⟨1, "via1", none, [Lvs.box 2 2 4 4 (some "A")]⟩, ⟨2, "met1_con", none, [Lvs.box 0 0 10 10 (some "A")]⟩,
   ⟨3, "met2_con", none, [Lvs.box 0 0 10 10 (some "A")]⟩]

def exViaEnv : Lvs.Env :=
  { layerOf := fun p => if p = (68, 44) then 0 else if p = (68, 20) then 1 else 2, texts := fun _ => [], inside := fun _ _ => false }

def exStack : List TechInfo.StackLayer := [⟨"met1", .metal (some ⟨"via1", "met1_con", "met2_con", 15 / 100⟩)⟩]

/-- The request of a layout with a via; without the contact in the process stack it cannot be reported. -/
theorem exVia_reported :
    (∃ q, RRequest.prepareRequest (Lvs.prepare (exViaTech exStack) true exViaDb) exViaEnv RRequest.exCfg true [] (some ["A"]) = .ok q ∧
      q.tech.vias.map (fun v => (v.layer.id, v.bottom, v.top)) = [(0, 1, 2)] ∧ (∀ v ∈ q.tech.vias, Joined q.tech v)) ∧
    (∃ q, RRequest.prepareRequest (Lvs.prepare (exViaTech []) true exViaDb) exViaEnv RRequest.exCfg true [] (some ["A"]) = .ok q ∧
      q.tech.conductors.map (·.layer.id) = [1, 2] ∧ ¬ ∀ v ∈ q.tech.vias, Joined q.tech v) := by
  refine ⟨⟨_, rfl, rfl, ?_⟩, ⟨_, rfl, rfl, ?_⟩⟩
  · unfold Joined; decide
  · unfold Joined; decide

/-- Three nodes and two elements, one of them small. -/
def exNetwork : Network :=
  ⟨"A", [⟨0, "A.0", "A", "met1", .point (100, 200)⟩, ⟨1, "A.1", "A", "met1", .box 0 0 10 20⟩,
         ⟨7, "$0", "A", "met2", .box 5 5 0 0⟩], [⟨0, 1, 25 / 10⟩, ⟨1, 7, 1 / 2000⟩]⟩

theorem exNetwork_shown : Showable exNetwork ∧
    (∃ r : Report Unit, outputResult exText {} [exNetwork] = .ok r ∧ r.events.length = 15) ∧
    ¬ Showable { exNetwork with elements := [⟨0, 2, 1⟩] } := by
  refine ⟨?_, ⟨_, rfl, rfl⟩, ?_⟩
  · unfold Showable; decide
  · unfold Showable; decide

/-- The report at the start of the resistor extraction. -/
example : Unreported ({} : Report Unit) := by unfold Unreported; decide

end Verif.Reporter
