import Mathlib.Algebra.Order.Field.Rat
import Mathlib.Data.List.Perm.Subperm
import Mathlib.Tactic.Linarith
import Mathlib.Tactic.Ring
import Mathlib.Tactic.SplitIfs

/-!
# How LVS of sg13g2 measures resistors and capacitors and finds their terminals

Models `GeneralNTerminalExtractor` (pdk/ihp_sg13g2/libs.tech/kpex/rule_decks/custom_extractor.lvs) for poly resistors and
`MIMCAPExtractor` (custom_mim_extractor.lvs). KLayout forms clusters of shapes by the connectivity of the extractor and calls
`extract_devices` for each of them with the shapes of its layers.

Left out: edges that are not parallel to an axis, varactors and inductors, and the joining of collinear parts of edges.
-/

namespace Verif.Decks

/-! ### Terminals -/

/-- A vertex, in database units. -/
abbrev Vertex := Int × Int

/-- The edges from the vertices on to the first vertex. -/
def edgesFrom (first : Vertex) : List Vertex → List (Vertex × Vertex)
  | [] => []
  | [x] => [(x, first)]
  | x :: y :: t => (x, y) :: edgesFrom first (y :: t)

/-- `polygon.each_edge` for a polygon without holes. -/
def hullEdges : List Vertex → List (Vertex × Vertex)
  | [] => []
  | a :: t => edgesFrom a (a :: t)

/-- `uniq` of Ruby: the first of equal elements is kept. -/
def rubyUniq (l : List Vertex) : List Vertex := l.foldl (fun acc x => if x ∈ acc then acc else acc ++ [x]) []

/-- `con_edges.uniq` of a polygon: the points of its edges (custom_extractor.lvs 306–313). -/
def corners (p : List Vertex) : List Vertex := rubyUniq ((hullEdges p).flatMap fun e => [e.1, e.2])

/-- `<=>` of the arrays `[x, y]` is not positive. -/
def vertexLe (a b : Vertex) : Bool := a.1 < b.1 || (a.1 == b.1 && a.2 ≤ b.2)

/-- `sort_by(&:first)` compares the first vertices (custom_extractor.lvs 315). -/
def firstLe (p q : List Vertex) : Bool :=
  match p, q with
  | a :: _, b :: _ => vertexLe a b
  | [], _ => true
  | _ :: _, [] => false

/-- The polygon made of the first four vertices; fewer raise an exception (custom_extractor.lvs 318–321). -/
def firstFour : List Vertex → Option (List Vertex)
  | a :: b :: c :: d :: _ => some [a, b, c, d]
  | _ => none

/-- `sort_polygons` applied to merged polygons; custom_extractor.lvs 292–326. -/
def sortPolygons (polygons : List (List Vertex)) : Option (List (List Vertex)) :=
  ((polygons.map corners).mergeSort firstLe).mapM firstFour

/-- `extract_devices` for a resistor of `num` terminals: the shapes of the terminals of each device, `none` for an exception;
`ports` are the polygons as they are in the cluster, `merged` after merging, `regions` the merged device markers;
custom_extractor.lvs 89–105, 248–290. Without `num` ports there is only a message. If merging leaves fewer than `num` ports,
`define_terminal` gets `nil`. -/
def extractGeneral (num : Nat) (regions : List (List Vertex)) (ports merged : List (List Vertex)) :
    Option (List (List (List Vertex))) :=
  regions.foldr (fun _ r => r.bind fun r =>
    if ports.length ≠ num then some r
    else (sortPolygons merged).bind fun sorted =>
      if sorted.length < num then none else some (sorted.take num :: r)) (some [])

/-- The layers of the extractor. -/
inductive Role where
  | core | port | meas | mark
deriving DecidableEq

/-- `get_connectivity` for resistors; custom_extractor.lvs 59–87. -/
def connected : Role → Role → Bool
  | .core, .core | .core, .mark | .core, .meas | .port, .mark | .meas, .mark => true
  | _, _ => false

/-- Two shapes are in one cluster: KLayout follows touching shapes of connected layers, in both directions. -/
inductive Together {S : Type} (role : S → Role) (touch : S → S → Prop) : S → S → Prop
  | refl (s) : Together role touch s s
  | symm {s t} : Together role touch s t → Together role touch t s
  | trans {s t u} : Together role touch s t → Together role touch t u → Together role touch s u
  | joined {s t} : touch s t → connected (role s) (role t) = true → Together role touch s t

/-! ### Resistors -/

/-- An edge parallel to an axis: whether it is horizontal, its position and its range. -/
structure Seg where
  horizontal : Bool
  pos : Int
  lo : Int
  hi : Int
deriving DecidableEq

/-- A rectangle. -/
structure Rectangle where
  x0 : Int
  y0 : Int
  x1 : Int
  y1 : Int

/-- The edges of a rectangle. -/
def Rectangle.edges (r : Rectangle) : List Seg :=
  [⟨true, r.y0, r.x0, r.x1⟩, ⟨true, r.y1, r.x0, r.x1⟩, ⟨false, r.x0, r.y0, r.y1⟩, ⟨false, r.x1, r.y0, r.y1⟩]

/-- The part of `s` on `t`. -/
def Seg.inter (s t : Seg) : List Seg :=
  if s.horizontal = t.horizontal ∧ s.pos = t.pos ∧ max s.lo t.lo < min s.hi t.hi then
    [⟨s.horizontal, s.pos, max s.lo t.lo, min s.hi t.hi⟩] else []

/-- `Edges.and`: the coincident parts of edges. -/
def edgesAnd (a b : List Seg) : List Seg := a.flatMap fun s => b.flatMap fun t => s.inter t

/-- The parts of `s` outside of `t`. -/
def Seg.minus (s t : Seg) : List Seg :=
  if s.horizontal = t.horizontal ∧ s.pos = t.pos ∧ max s.lo t.lo < min s.hi t.hi then
    (if s.lo < t.lo then [⟨s.horizontal, s.pos, s.lo, t.lo⟩] else []) ++
    (if t.hi < s.hi then [⟨s.horizontal, s.pos, t.hi, s.hi⟩] else []) else [s]

/-- `Edges.not`. -/
def edgesNot (a b : List Seg) : List Seg := b.foldl (fun acc t => acc.flatMap fun s => s.minus t) a

/-- Two edges have a common point. -/
def Seg.touches (s t : Seg) : Bool :=
  if s.horizontal = t.horizontal then s.pos == t.pos && decide (max s.lo t.lo ≤ min s.hi t.hi)
  else decide (s.lo ≤ t.pos) && decide (t.pos ≤ s.hi) && decide (t.lo ≤ s.pos) && decide (s.pos ≤ t.hi)

/-- `Edges.interacting` with edges. -/
def edgesInteracting (a b : List Seg) : List Seg := a.filter fun s => b.any s.touches

/-- The lengths of edges. -/
def lengths (a : List Seg) : List Int := a.map fun s => s.hi - s.lo

/-- `get_uniq_length`: the common length, 0 if there is none; custom_extractor.lvs 328–336, custom_mim_extractor.lvs 236–244. -/
def uniqLength (ls : List Int) : Int :=
  match ls.eraseDups with
  | [l] => l
  | _ => 0

/-- The point lies in or on the rectangle. -/
def Rectangle.has (r : Rectangle) (p : Vertex) : Bool :=
  decide (r.x0 ≤ p.1) && decide (p.1 ≤ r.x1) && decide (r.y0 ≤ p.2) && decide (p.2 ≤ r.y1)

/-- Width, length, distance between bends and number of bends. -/
structure ResParams where
  w : Int
  l : Int
  ps : Int
  b : Nat
deriving DecidableEq, Repr

/-- `calc_res_params`, in database units; custom_extractor.lvs 157–184. `meas` are the corners of the measuring marker, `notch` the
least notch of it, `none` as result an exception (`10 * nil`). -/
def calcRes (dev : List Seg) (ports : List Rectangle) (meas : List Vertex) (notch : Option Int) : Option ResParams :=
  let widthEdges := edgesAnd dev (ports.flatMap Rectangle.edges)
  let width := uniqLength (lengths widthEdges)
  let length := (lengths (edgesNot (edgesInteracting dev widthEdges) widthEdges)).min?
  let bends := (meas.filter fun p => !ports.any fun r => r.has p).length / 4
  if 0 < bends then length.map fun l => ⟨width, l + width, notch.getD 0, bends⟩
  else some ⟨width, length.getD 0, 0, 0⟩

/-- The corners of a rectangle. -/
def Rectangle.corners (r : Rectangle) : List Vertex := [(r.x0, r.y0), (r.x0, r.y1), (r.x1, r.y1), (r.x1, r.y0)]

/-! ### MIM capacitors -/

/-- The length of an edge parallel to an axis. -/
def edgeLength (e : Vertex × Vertex) : Int := |e.2.1 - e.1.1| + |e.2.2 - e.1.2|

/-- Parameters of a MIM capacitor. -/
structure MimParams where
  w : ℚ
  l : ℚ
  A : ℚ
  P : ℚ
deriving DecidableEq

/-- `set_device_parameters` and `calc_cmim_params` for a capacitor of one polygon; `rf` for `rfcmim`, `unit` the database unit;
custom_mim_extractor.lvs 153–198. Left out: `wfeed`. -/
def mimParams (rf : Bool) (unit : ℚ) (core : List Vertex) : MimParams :=
  let es := hullEdges core
  let width := uniqLength ((es.filter fun e => e.1.2 == e.2.2).map edgeLength)
  let length := uniqLength ((es.filter fun e => !(e.1.2 == e.2.2)).map edgeLength)
  { w := (if rf then length else width) * unit, l := (if rf then width else length) * unit,
    A := width * length * unit * unit, P := (width + length) * 2 * unit }

/-! ### Specification -/

/-- Twice the signed area of a polygon. -/
def doubleArea (p : List Vertex) : Int := ((hullEdges p).map fun e => e.1.1 * e.2.2 - e.2.1 * e.1.2).sum

/-- The circumference of a polygon with edges parallel to the axes. -/
def circumference (p : List Vertex) : Int := ((hullEdges p).map edgeLength).sum

/-! ### Proofs -/

theorem uniq_from : ∀ (t : List Vertex) (f x : Vertex) (acc : List Vertex), x ∈ acc → f ∈ acc → (acc ++ t).Nodup →
    ((edgesFrom f (x :: t)).flatMap fun e => [e.1, e.2]).foldl (fun acc x => if x ∈ acc then acc else acc ++ [x]) acc = acc ++ t
  | [], f, x, acc, hx, hf, _ => by simp [edgesFrom, hx, hf]
  | y :: t, f, x, acc, hx, hf, hn => by
    have hy : y ∉ acc := fun h => (List.nodup_append.1 hn).2.2 y h y (.head _) rfl
    rw [edgesFrom, List.flatMap_cons, List.cons_append, List.cons_append, List.nil_append, List.foldl_cons, if_pos hx,
      List.foldl_cons, if_neg hy, uniq_from t f y (acc ++ [y]) (by simp) (by simp [hf]) (by simpa using hn)]
    simp

/-- The corners of a polygon with different vertices are its vertices, in order. -/
theorem corners_eq {p : List Vertex} (h : p.Nodup) : corners p = p := by
  cases p with
  | nil => rfl
  | cons a t =>
    have : ∀ l : List Vertex, (a :: l).foldl (fun acc x => if x ∈ acc then acc else acc ++ [x]) [] =
        (a :: l).foldl (fun acc x => if x ∈ acc then acc else acc ++ [x]) [a] := fun l => by simp
    have h' := uniq_from t a a [a] (by simp) (by simp) h
    rw [corners, rubyUniq, hullEdges]
    cases t with
    | nil => simp [edgesFrom]
    | cons b t =>
      rw [edgesFrom, List.flatMap_cons, List.cons_append] at h' ⊢
      rw [this, h', List.singleton_append]

theorem firstLe_trans (p q r : List Vertex) (h : firstLe p q = true) (h' : firstLe q r = true) : firstLe p r = true := by
  rcases p with _ | ⟨⟨a, b⟩, p⟩
  · rfl
  rcases q with _ | ⟨⟨c, d⟩, q⟩
  · exact absurd h (by simp [firstLe])
  rcases r with _ | ⟨⟨e, f⟩, r⟩
  · exact absurd h' (by simp [firstLe])
  simp only [firstLe, vertexLe, Bool.or_eq_true, Bool.and_eq_true, decide_eq_true_eq, beq_iff_eq] at *
  omega

theorem firstLe_total (p q : List Vertex) : (firstLe p q || firstLe q p) = true := by
  rcases p with _ | ⟨⟨a, b⟩, p⟩
  · rfl
  rcases q with _ | ⟨⟨c, d⟩, q⟩
  · simp [firstLe]
  simp only [firstLe, vertexLe, Bool.or_eq_true, Bool.and_eq_true, decide_eq_true_eq, beq_iff_eq]
  omega

theorem mapM_four : ∀ {l : List (List Vertex)}, (∀ p ∈ l, p.length = 4) → l.mapM firstFour = some l
  | [], _ => rfl
  | p :: l, h => by
    have hp := h p (.head _)
    obtain ⟨a, b, c, d, rfl⟩ : ∃ a b c d, p = [a, b, c, d] := by
      rcases p with _ | ⟨a, _ | ⟨b, _ | ⟨c, _ | ⟨d, _ | ⟨e, p⟩⟩⟩⟩⟩ <;> simp at hp
      exact ⟨a, b, c, d, rfl⟩
    rw [List.mapM_cons, mapM_four fun q hq => h q (.tail _ hq)]
    rfl

theorem sortPolygons_eq {polygons : List (List Vertex)} (h : ∀ p ∈ polygons, p.length = 4 ∧ p.Nodup) :
    sortPolygons polygons = some (polygons.mergeSort firstLe) := by
  have : polygons.map corners = polygons := by
    calc polygons.map corners = polygons.map id := List.map_congr_left fun p hp => corners_eq (h p hp).2
      _ = polygons := List.map_id _
  rw [sortPolygons, this]
  exact mapM_four fun p hp => (h p ((List.mergeSort_perm _ _).subset hp)).1

/-- For each marker there is one device. If the ports are rectangles that do not touch each other (so merging keeps them), each
terminal gets one of them with its own shape, in the order of their lower left corners. -/
theorem terminals_ports_partial {num : Nat} {regions ports merged : List (List Vertex)} (hn : ports.length = num)
    (hm : merged.Perm ports) (hr : ∀ p ∈ ports, p.length = 4 ∧ p.Nodup) :
    ∃ ts : List (List Vertex), extractGeneral num regions ports merged = some (regions.map fun _ => ts) ∧ ts.Perm ports ∧
      ts.Pairwise fun p q => ∀ a ∈ p.head?, ∀ b ∈ q.head?, a.1 < b.1 ∨ a.1 = b.1 ∧ a.2 ≤ b.2 := by
  have hs := sortPolygons_eq fun p hp => hr p (hm.subset hp)
  have hl : (merged.mergeSort firstLe).length = num := by rw [(List.mergeSort_perm _ _).length_eq, hm.length_eq, hn]
  refine ⟨merged.mergeSort firstLe, ?_, (List.mergeSort_perm _ _).trans hm,
    (List.pairwise_mergeSort firstLe_trans firstLe_total _).imp ?_⟩
  swap
  · intro p q h a ha b hb
    obtain ⟨p', rfl⟩ : ∃ p', p = a :: p' := by cases p <;> simp_all
    obtain ⟨q', rfl⟩ : ∃ q', q = b :: q' := by cases q <;> simp_all
    simpa [firstLe, vertexLe] using h
  induction regions with
  | nil => rfl
  | cons r regions ih =>
    rw [extractGeneral, List.foldr_cons, ← extractGeneral, ih, Option.bind_some, if_neg (by simp [hn]), hs, Option.bind_some,
      if_neg (by omega), List.take_of_length_le (by omega), List.map_cons]

/-- Violation: of a port with more corners only the first four are taken, so the shape of the terminal is not the port. -/
theorem terminal_cut {p : List Vertex} (h : p.Nodup) (hl : 4 < p.length) :
    sortPolygons [p] = some [p.take 4] ∧ p.take 4 ≠ p := by
  constructor
  · rw [sortPolygons, List.map_singleton, corners_eq h, List.mergeSort_singleton]
    rcases p with _ | ⟨a, _ | ⟨b, _ | ⟨c, _ | ⟨d, p⟩⟩⟩⟩ <;> simp at hl
    rfl
  · intro he
    have := congrArg List.length he
    rw [List.length_take] at this
    omega

/-- Violation: of an L-shaped port, the first four corners give a shape with another area. -/
theorem terminal_cut_ex : ∃ p q : List Vertex, p.Nodup ∧ sortPolygons [p] = some [q] ∧ doubleArea p = -6 ∧ doubleArea q = -3 :=
  ⟨[(0, 0), (0, 2), (1, 2), (1, 1), (2, 1), (2, 0)], [(0, 0), (0, 2), (1, 2), (1, 1)], by decide,
    (terminal_cut (by decide) (by decide)).1, by decide, by decide⟩

/-- Without the right number of ports no device is made. -/
theorem ports_wrong {num : Nat} {regions ports merged : List (List Vertex)} (h : ports.length ≠ num) :
    extractGeneral num regions ports merged = some [] := by
  induction regions with
  | nil => rfl
  | cons r regions ih => rw [extractGeneral, List.foldr_cons, ← extractGeneral, ih, Option.bind_some, if_pos h]

theorem together_ports {S : Type} {role : S → Role} {touch : S → S → Prop} {s t : S}
    (h : Together role touch s t) : s = t ∨ (role s = .port → ∃ k, role k = .mark ∧ touch s k ∧ Together role touch s k) ∧
      (role t = .port → ∃ k, role k = .mark ∧ touch t k ∧ Together role touch t k) := by
  induction h with
  | refl s => exact .inl rfl
  | symm h ih => exact ih.imp Eq.symm And.symm
  | trans h h' ih ih' =>
    rcases ih with rfl | ih
    · exact ih'
    rcases ih' with rfl | ih'
    · exact .inr ih
    exact .inr ⟨ih.1, ih'.2⟩
  | @joined s t ht hc =>
    refine .inr ⟨fun hs => ⟨t, ?_, ht, .joined ht hc⟩, fun hs => ?_⟩
    · cases e : role t <;> simp [hs, e, connected] at hc ⊢
    · cases e : role s <;> simp [hs, e, connected] at hc

/-- The other ports of the cluster of a shape touch a marker of it: poly that only touches a port or a measuring shape does not count
as a terminal. -/
theorem cluster_ports_partial {S : Type} {role : S → Role} {touch : S → S → Prop} {m s : S}
    (hm : role m = .mark) (h : Together role touch m s) (hs : role s = .port) :
    ∃ k, role k = .mark ∧ touch s k ∧ Together role touch m k := by
  rcases together_ports h with rfl | h'
  · simp [hm] at hs
  · obtain ⟨k, hk, ht, hk'⟩ := h'.2 hs
    exact ⟨k, hk, ht, h.trans hk'⟩

/-- A resistor whose marker touches two rectangular ports and is in a cluster without other markers: it is extracted, as one device
whose terminals are the two ports. `merged` are its ports after merging, `cluster` the shapes of its cluster. -/
theorem resistor_alone_partial {S : Type} {role : S → Role} {touch : S → S → Prop} {shape : S → List Vertex} {m a b : S}
    (hm : role m = .mark) (ha : role a = .port) (hb : role b = .port) (hab : a ≠ b) (h1 : touch a m) (h2 : touch b m)
    (hother : ∀ s, role s = .port → touch s m → s = a ∨ s = b) {cluster : List S} (hn : cluster.Nodup)
    (hcl : ∀ s, s ∈ cluster ↔ Together role touch m s) (hmark : ∀ k ∈ cluster, role k = .mark → k = m)
    (hra : (shape a).length = 4 ∧ (shape a).Nodup) (hrb : (shape b).length = 4 ∧ (shape b).Nodup) {merged : List (List Vertex)}
    (hmerged : merged.Perm [shape a, shape b]) :
    ∃ ts : List (List Vertex), extractGeneral 2 [shape m] ((cluster.filter fun s => role s = .port).map shape) merged = some [ts] ∧
      ts.Perm [shape a, shape b] := by
  have ta : a ∈ cluster := (hcl a).2 (Together.joined h1 (by rw [ha, hm]; rfl)).symm
  have tb : b ∈ cluster := (hcl b).2 (Together.joined h2 (by rw [hb, hm]; rfl)).symm
  have hp : (cluster.filter fun s => role s = .port).Perm [a, b] := by
    refine (List.perm_ext_iff_of_nodup (hn.filter _) (by simp [hab])).2 fun s => ?_
    simp only [List.mem_filter, decide_eq_true_eq, List.mem_cons, List.not_mem_nil, or_false]
    constructor
    · rintro ⟨hs, hr⟩
      obtain ⟨k, hk, ht, hmk⟩ := cluster_ports_partial hm ((hcl s).1 hs) hr
      rw [hmark k ((hcl k).2 hmk) hk] at ht
      exact hother s hr ht
    · rintro (rfl | rfl)
      · exact ⟨ta, ha⟩
      · exact ⟨tb, hb⟩
  have hp' := hp.map shape
  obtain ⟨ts, he, ht, -⟩ := terminals_ports_partial (num := 2) (regions := [shape m]) (by rw [hp'.length_eq]; rfl) (hmerged.trans hp'.symm)
    fun p hq => by
      rcases List.mem_cons.1 (hp'.mem_iff.1 hq) with rfl | hq
      · exact hra
      · rw [List.mem_singleton.1 hq]; exact hrb
  exact ⟨ts, he, ht.trans hp'⟩

/-- Violation: two resistors in series with a common piece of poly between them are in one cluster, which has three ports, so
neither of them is extracted. `shape` gives the polygon of a shape, `cluster` the shapes of the cluster of the first marker. -/
theorem series_lost {S : Type} {role : S → Role} {touch : S → S → Prop} {shape : S → List Vertex} {m m' a b c : S}
    (hm : role m = .mark) (hm' : role m' = .mark) (ha : role a = .port) (hb : role b = .port) (hc : role c = .port)
    (hab : a ≠ b) (hbc : b ≠ c) (hac : a ≠ c) (h1 : touch a m) (h2 : touch b m) (h3 : touch b m') (h4 : touch c m')
    {cluster : List S} (hcl : ∀ s, s ∈ cluster ↔ Together role touch m s) {regions merged : List (List Vertex)} :
    m' ∈ cluster ∧
    extractGeneral 2 regions ((cluster.filter fun s => role s = .port).map shape) merged = some [] := by
  have ta : Together role touch m a := (Together.joined h1 (by rw [ha, hm]; rfl)).symm
  have tb : Together role touch m b := (Together.joined h2 (by rw [hb, hm]; rfl)).symm
  have tm : Together role touch m m' := tb.trans (.joined h3 (by rw [hb, hm']; rfl))
  have tc : Together role touch m c := tm.trans (Together.joined h4 (by rw [hc, hm']; rfl)).symm
  refine ⟨(hcl _).2 tm, ports_wrong ?_⟩
  have hn : [a, b, c].Nodup := by simp [hab, hbc, hac]
  have hsub : [a, b, c] ⊆ cluster.filter fun s => role s = .port := by
    intro s hs
    simp only [List.mem_cons, List.not_mem_nil, or_false] at hs
    rcases hs with rfl | rfl | rfl
    · exact List.mem_filter.2 ⟨(hcl _).2 ta, by simp [ha]⟩
    · exact List.mem_filter.2 ⟨(hcl _).2 tb, by simp [hb]⟩
    · exact List.mem_filter.2 ⟨(hcl _).2 tc, by simp [hc]⟩
  have := (hn.subperm hsub).length_le
  simp only [List.length_cons, List.length_nil] at this
  rw [List.length_map]
  omega

/-- Violation: ports that touch each other are counted apart but merged to one, and the extraction ends with an exception. -/
theorem touching_ports {num : Nat} {r : List Vertex} {regions ports merged : List (List Vertex)} (hn : ports.length = num)
    (hm : merged.length < num) (hr : ∀ p ∈ merged, p.length = 4 ∧ p.Nodup) :
    extractGeneral num (r :: regions) ports merged = none := by
  rw [extractGeneral, List.foldr_cons, ← extractGeneral]
  cases extractGeneral num regions ports merged with
  | none => rfl
  | some x =>
    rw [Option.bind_some, if_neg (by simp [hn]), sortPolygons_eq hr, Option.bind_some,
      if_pos (by rw [(List.mergeSort_perm _ _).length_eq]; exact hm)]

theorem uniqLength_pair (a : Int) : uniqLength [a, a] = a := by simp [uniqLength, List.eraseDups_cons]

/-- A straight resistor with ports at its left and right side that are at least as wide as it: width and length are those drawn, and
there are no bends. -/
theorem res_straight_partial {d p q : Rectangle} (hx : d.x0 < d.x1) (hy : d.y0 < d.y1) (hp : p.x0 < p.x1) (hp1 : p.x1 = d.x0)
    (hp2 : p.y0 ≤ d.y0) (hp3 : d.y1 ≤ p.y1) (hq : q.x0 < q.x1) (hq1 : q.x0 = d.x1) (hq2 : q.y0 ≤ d.y0) (hq3 : d.y1 ≤ q.y1)
    (notch : Option Int) :
    calcRes d.edges [p, q] d.corners notch = some ⟨d.y1 - d.y0, d.x1 - d.x0, 0, 0⟩ := by
  obtain ⟨x0, y0, x1, y1⟩ := d
  obtain ⟨px0, py0, px1, py1⟩ := p
  obtain ⟨qx0, qy0, qx1, qy1⟩ := q
  dsimp only at *
  obtain rfl : x0 = px1 := hp1.symm
  obtain rfl : x1 = qx0 := hq1.symm
  have hw : edgesAnd (Rectangle.edges ⟨x0, y0, x1, y1⟩) ([⟨px0, py0, x0, py1⟩, ⟨x1, qy0, qx1, qy1⟩].flatMap Rectangle.edges) =
      [⟨false, x0, y0, y1⟩, ⟨false, x1, y0, y1⟩] := by
    simp [edgesAnd, Rectangle.edges, Seg.inter, hp.ne', hx.ne, hx.ne', hq.ne, (hx.trans hq).ne, (hp.trans hx).ne', hy,
      hp2.trans_lt hy, hy.trans_le hp3, hp2.trans_lt (hy.trans_le hp3), hp2, hp3, hq2.trans_lt hy, hy.trans_le hq3,
      hq2.trans_lt (hy.trans_le hq3), hq2, hq3]
  have hl : edgesNot (edgesInteracting (Rectangle.edges ⟨x0, y0, x1, y1⟩) [⟨false, x0, y0, y1⟩, ⟨false, x1, y0, y1⟩])
      [⟨false, x0, y0, y1⟩, ⟨false, x1, y0, y1⟩] = [⟨true, y0, x0, x1⟩, ⟨true, y1, x0, x1⟩] := by
    simp [edgesNot, edgesInteracting, Rectangle.edges, Seg.minus, Seg.touches, hx.le, hy.le, hx.ne', hy]
  have hb : ((Rectangle.corners ⟨x0, y0, x1, y1⟩).filter fun v =>
      ![(⟨px0, py0, x0, py1⟩ : Rectangle), ⟨x1, qy0, qx1, qy1⟩].any fun r => r.has v).length / 4 = 0 := by
    simp [Rectangle.corners, Rectangle.has, hp.le, hp2, hp3, hq.le, hq2, hq3, hp2.trans hy.le, hy.le.trans hp3, hq2.trans hy.le,
      hy.le.trans hq3]
  simp only [calcRes, hw, hl, hb, lengths, List.map_cons, List.map_nil, uniqLength_pair]
  simp

/-- The same for a resistor with ports below and above it. -/
theorem res_upright_partial {d p q : Rectangle} (hx : d.x0 < d.x1) (hy : d.y0 < d.y1) (hp : p.y0 < p.y1) (hp1 : p.y1 = d.y0)
    (hp2 : p.x0 ≤ d.x0) (hp3 : d.x1 ≤ p.x1) (hq : q.y0 < q.y1) (hq1 : q.y0 = d.y1) (hq2 : q.x0 ≤ d.x0) (hq3 : d.x1 ≤ q.x1)
    (notch : Option Int) :
    calcRes d.edges [p, q] d.corners notch = some ⟨d.x1 - d.x0, d.y1 - d.y0, 0, 0⟩ := by
  obtain ⟨x0, y0, x1, y1⟩ := d
  obtain ⟨px0, py0, px1, py1⟩ := p
  obtain ⟨qx0, qy0, qx1, qy1⟩ := q
  dsimp only at *
  obtain rfl : y0 = py1 := hp1.symm
  obtain rfl : y1 = qy0 := hq1.symm
  have hw : edgesAnd (Rectangle.edges ⟨x0, y0, x1, y1⟩) ([⟨px0, py0, px1, y0⟩, ⟨qx0, y1, qx1, qy1⟩].flatMap Rectangle.edges) =
      [⟨true, y0, x0, x1⟩, ⟨true, y1, x0, x1⟩] := by
    simp [edgesAnd, Rectangle.edges, Seg.inter, hp.ne', hy.ne, hy.ne', hq.ne, (hy.trans hq).ne, (hp.trans hy).ne', hx,
      hp2.trans_lt hx, hx.trans_le hp3, hp2.trans_lt (hx.trans_le hp3), hp2, hp3, hq2.trans_lt hx, hx.trans_le hq3,
      hq2.trans_lt (hx.trans_le hq3), hq2, hq3]
  have hl : edgesNot (edgesInteracting (Rectangle.edges ⟨x0, y0, x1, y1⟩) [⟨true, y0, x0, x1⟩, ⟨true, y1, x0, x1⟩])
      [⟨true, y0, x0, x1⟩, ⟨true, y1, x0, x1⟩] = [⟨false, x0, y0, y1⟩, ⟨false, x1, y0, y1⟩] := by
    simp [edgesNot, edgesInteracting, Rectangle.edges, Seg.minus, Seg.touches, hx.le, hy.le, hy.ne', hx]
  have hb : ((Rectangle.corners ⟨x0, y0, x1, y1⟩).filter fun v =>
      ![(⟨px0, py0, px1, y0⟩ : Rectangle), ⟨qx0, y1, qx1, qy1⟩].any fun r => r.has v).length / 4 = 0 := by
    simp [Rectangle.corners, Rectangle.has, hp.le, hp2, hp3, hq.le, hq2, hq3, hp2.trans hx.le, hx.le.trans hp3, hq2.trans hx.le,
      hx.le.trans hq3]
  simp only [calcRes, hw, hl, hb, lengths, List.map_cons, List.map_nil, uniqLength_pair]
  simp

/-- A resistor with one bend, of legs of the same width as the piece between them, with a port below each leg: the width is that of
the legs, the length that of a leg up to the outer side of the bend, and one bend is reported, with the notch between the legs. -/
theorem res_bend_partial {x1 x2 x3 x4 y0 y1 y2 p0 p1 py q0 q1 qy w : Int} (h12 : x1 < x2) (h23 : x2 < x3) (h34 : x3 < x4) (hy01 : y0 < y1)
    (hy12 : y1 < y2) (hw1 : x2 - x1 = w) (hw2 : x4 - x3 = w) (hw3 : y2 - y1 = w) (hp : py < y0) (hp0 : p0 ≤ x1) (hp1 : x2 ≤ p1)
    (hp3 : p1 < x3) (hq : qy < y0) (hq0 : q0 ≤ x3) (hq1 : x4 ≤ q1) (hq3 : x2 < q0) :
    calcRes [⟨true, y0, x1, x2⟩, ⟨true, y0, x3, x4⟩, ⟨true, y1, x2, x3⟩, ⟨true, y2, x1, x4⟩,
        ⟨false, x1, y0, y2⟩, ⟨false, x2, y0, y1⟩, ⟨false, x3, y0, y1⟩, ⟨false, x4, y0, y2⟩]
      [⟨p0, py, p1, y0⟩, ⟨q0, qy, q1, y0⟩]
      [(x1, y0), (x1, y2), (x4, y2), (x4, y0), (x3, y0), (x3, y1), (x2, y1), (x2, y0)] (some (x3 - x2)) =
      some ⟨w, y2 - y0, x3 - x2, 1⟩ := by
  have hw : edgesAnd [⟨true, y0, x1, x2⟩, ⟨true, y0, x3, x4⟩, ⟨true, y1, x2, x3⟩, ⟨true, y2, x1, x4⟩,
        ⟨false, x1, y0, y2⟩, ⟨false, x2, y0, y1⟩, ⟨false, x3, y0, y1⟩, ⟨false, x4, y0, y2⟩]
      ([(⟨p0, py, p1, y0⟩ : Rectangle), ⟨q0, qy, q1, y0⟩].flatMap Rectangle.edges) =
      [⟨true, y0, x1, x2⟩, ⟨true, y0, x3, x4⟩] := by
    have a1 : max x1 p0 = x1 := by omega
    have a2 : min x2 p1 = x2 := by omega
    have a3 : ¬ (max x1 q0 < min x2 q1) := by omega
    have a4 : ¬ (max x3 p0 < min x4 p1) := by omega
    have a5 : max x3 q0 = x3 := by omega
    have a6 : min x4 q1 = x4 := by omega
    have c1 : ¬ (max y0 py < min y2 y0) := by omega
    have c2 : ¬ (max y0 py < min y1 y0) := by omega
    have c3 : ¬ (max y0 qy < min y2 y0) := by omega
    have c4 : ¬ (max y0 qy < min y1 y0) := by omega
    have d1 : y0 ≠ py := by omega
    have d2 : y0 ≠ qy := by omega
    have d3 : y1 ≠ py := by omega
    have d4 : y1 ≠ qy := by omega
    have d5 : y1 ≠ y0 := by omega
    have d6 : y2 ≠ py := by omega
    have d7 : y2 ≠ qy := by omega
    have d8 : y2 ≠ y0 := by omega
    simp only [edgesAnd, Rectangle.edges, Seg.inter, List.flatMap_cons, List.flatMap_nil, List.cons_append, List.nil_append,
      a1, a2, a3, a4, a5, a6, c1, c2, c3, c4, d1, d2, d3, d4, d5, d6, d7, d8, h12, h34, if_true, if_false, and_false, false_and,
      true_and, Bool.true_eq_false, Bool.false_eq_true, List.append_nil]
  have hl : edgesNot (edgesInteracting [⟨true, y0, x1, x2⟩, ⟨true, y0, x3, x4⟩, ⟨true, y1, x2, x3⟩, ⟨true, y2, x1, x4⟩,
        ⟨false, x1, y0, y2⟩, ⟨false, x2, y0, y1⟩, ⟨false, x3, y0, y1⟩, ⟨false, x4, y0, y2⟩]
        [⟨true, y0, x1, x2⟩, ⟨true, y0, x3, x4⟩]) [⟨true, y0, x1, x2⟩, ⟨true, y0, x3, x4⟩] =
      [⟨false, x1, y0, y2⟩, ⟨false, x2, y0, y1⟩, ⟨false, x3, y0, y1⟩, ⟨false, x4, y0, y2⟩] := by
    have d5 : y1 ≠ y0 := by omega
    have d8 : y2 ≠ y0 := by omega
    simp [edgesNot, edgesInteracting, Seg.minus, Seg.touches, h12, h34, h12.le, h34.le, hy01.le, (hy01.trans hy12).le, d5, d8, h23.not_gt]
  have hb : ([(x1, y0), (x1, y2), (x4, y2), (x4, y0), (x3, y0), (x3, y1), (x2, y1), (x2, y0)].filter fun v =>
      ![(⟨p0, py, p1, y0⟩ : Rectangle), ⟨q0, qy, q1, y0⟩].any fun r => r.has v).length / 4 = 1 := by
    have f1 : x1 ≤ p1 := by omega
    have f2 : p0 ≤ x2 := by omega
    have f3 : x3 ≤ q1 := by omega
    have f4 : q0 ≤ x4 := by omega
    simp [Rectangle.has, hp.le, hq.le, hp0, hp1, hq0, hq1, f1, f2, f3, f4, (hy01.trans hy12).not_ge, hy01.not_ge]
  simp only [calcRes, hw, hl, hb, lengths, List.map_cons, List.map_nil, hw1, hw2, uniqLength_pair]
  simp [List.min?_cons]
  omega

/-- Violation: if the marker of a straight resistor is wider than the poly under it, the measured length is not the distance between
the ports: it follows from the widths only, and a bend is reported. -/
theorem res_overhang {d p q : Rectangle} (hx : d.x0 < d.x1) (hp : p.x0 < p.x1) (hp1 : p.x1 = d.x0)
    (hq : q.x0 < q.x1) (hq1 : q.x0 = d.x1) (h1 : q.y0 = p.y0) (h2 : q.y1 = p.y1) (h3 : d.y0 < p.y0) (h4 : p.y0 < p.y1)
    (h5 : p.y1 < d.y1) (notch : Option Int) :
    calcRes d.edges [p, q] d.corners notch =
      some ⟨p.y1 - p.y0, min (p.y0 - d.y0) (d.y1 - p.y1) + (p.y1 - p.y0), notch.getD 0, 1⟩ := by
  obtain ⟨x0, y0, x1, y1⟩ := d
  obtain ⟨px0, p0, px1, p1⟩ := p
  obtain ⟨qx0, qy0, qx1, qy1⟩ := q
  dsimp only at *
  obtain rfl : x0 = px1 := hp1.symm
  obtain rfl : x1 = qx0 := hq1.symm
  subst h1 h2
  have hw : edgesAnd (Rectangle.edges ⟨x0, y0, x1, y1⟩) ([⟨px0, qy0, x0, qy1⟩, ⟨x1, qy0, qx1, qy1⟩].flatMap Rectangle.edges) =
      [⟨false, x0, qy0, qy1⟩, ⟨false, x1, qy0, qy1⟩] := by
    simp [edgesAnd, Rectangle.edges, Seg.inter, hp.ne', hx.ne, hx.ne', hq.ne, (hx.trans hq).ne, (hp.trans hx).ne', h4,
      h3.trans h4, h4.trans h5, (h3.trans h4).trans h5, h3.le, h5.le]
  have hl : edgesNot (edgesInteracting (Rectangle.edges ⟨x0, y0, x1, y1⟩) [⟨false, x0, qy0, qy1⟩, ⟨false, x1, qy0, qy1⟩])
      [⟨false, x0, qy0, qy1⟩, ⟨false, x1, qy0, qy1⟩] =
      [⟨false, x0, y0, qy0⟩, ⟨false, x0, qy1, y1⟩, ⟨false, x1, y0, qy0⟩, ⟨false, x1, qy1, y1⟩] := by
    simp [edgesNot, edgesInteracting, Rectangle.edges, Seg.minus, Seg.touches, hx.le, hx.ne, hx.ne', h3, h4, h5,
      h3.trans h4, h4.trans h5, (h3.trans h4).trans h5, (h3.trans h4).le, (h4.trans h5).le, ((h3.trans h4).trans h5).le,
      h3.not_ge, h5.not_ge, h4.le]
  have hb : ((Rectangle.corners ⟨x0, y0, x1, y1⟩).filter fun v =>
      ![(⟨px0, qy0, x0, qy1⟩ : Rectangle), ⟨x1, qy0, qx1, qy1⟩].any fun r => r.has v).length / 4 = 1 := by
    simp [Rectangle.corners, Rectangle.has, h3.not_ge, h5.not_ge]
  simp only [calcRes, hw, hl, hb, lengths, List.map_cons, List.map_nil, uniqLength_pair]
  simp [List.min?_cons]

/-- Violation: two resistors of different width between the same two ports get the width 0. -/
theorem res_parallel_ex : (calcRes ((Rectangle.mk 0 0 10 2).edges ++ (Rectangle.mk 0 4 10 7).edges)
    [⟨-5, 0, 0, 7⟩, ⟨10, 0, 15, 7⟩] ((Rectangle.mk 0 0 10 2).corners ++ (Rectangle.mk 0 4 10 7).corners) none).map (·.w) =
    some 0 := by decide

/-- A rectangular MIM capacitor: area, circumference and sides are those drawn; for `rfcmim` the sides are exchanged. -/
theorem mim_rect_partial {x0 y0 x1 y1 : Int} (hx : x0 < x1) (hy : y0 < y1) (rf : Bool) (unit : ℚ) :
    let core : List Vertex := [(x0, y0), (x0, y1), (x1, y1), (x1, y0)]
    let m := mimParams rf unit core
    m.A = |doubleArea core| / 2 * unit ^ 2 ∧ m.P = circumference core * unit ∧
      (if rf then m.l else m.w) = (x1 - x0 : Int) * unit ∧ (if rf then m.w else m.l) = (y1 - y0 : Int) * unit := by
  intro core m
  have hw : uniqLength (((hullEdges core).filter fun e => e.1.2 == e.2.2).map edgeLength) = x1 - x0 := by
    have : |x1 - x0| = x1 - x0 := abs_of_pos (by omega)
    have h' : |x0 - x1| = x1 - x0 := by rw [abs_sub_comm]; exact this
    simp [core, hullEdges, edgesFrom, hy.ne, hy.ne', edgeLength, this, h', uniqLength_pair]
  have hl : uniqLength (((hullEdges core).filter fun e => !(e.1.2 == e.2.2)).map edgeLength) = y1 - y0 := by
    have : |y1 - y0| = y1 - y0 := abs_of_pos (by omega)
    have h' : |y0 - y1| = y1 - y0 := by rw [abs_sub_comm]; exact this
    simp [core, hullEdges, edgesFrom, hy.ne, hy.ne', edgeLength, this, h', uniqLength_pair]
  have ha : |doubleArea core| = 2 * ((x1 - x0) * (y1 - y0)) := by
    have : doubleArea core = -(2 * ((x1 - x0) * (y1 - y0))) := by
      simp [core, doubleArea, hullEdges, edgesFrom]
      ring
    rw [this, abs_neg, abs_of_pos]
    have := Int.mul_pos (Int.sub_pos_of_lt hx) (Int.sub_pos_of_lt hy)
    omega
  have hc : circumference core = 2 * ((x1 - x0) + (y1 - y0)) := by
    have h1 : |x1 - x0| = x1 - x0 := abs_of_pos (by omega)
    have h2 : |x0 - x1| = x1 - x0 := by rw [abs_sub_comm]; exact h1
    have h3 : |y1 - y0| = y1 - y0 := abs_of_pos (by omega)
    have h4 : |y0 - y1| = y1 - y0 := by rw [abs_sub_comm]; exact h3
    simp [core, circumference, hullEdges, edgesFrom, edgeLength, h1, h2, h3, h4]
    ring
  simp only [m, mimParams, hw, hl]
  rw [ha, hc]
  refine ⟨?_, ?_, ?_, ?_⟩
  · push_cast; ring
  · push_cast; ring
  · cases rf <;> simp
  · cases rf <;> simp

/-- Violation: every L-shaped MIM capacitor gets sides, area and circumference 0. -/
theorem mim_notch {a b c d : Int} (ha : 0 < a) (hac : a < c) (hd : 0 < d) (hdb : d < b) (rf : Bool) (unit : ℚ) :
    let core : List Vertex := [(0, 0), (0, b), (a, b), (a, d), (c, d), (c, 0)]
    mimParams rf unit core = ⟨0, 0, 0, 0⟩ ∧ doubleArea core < 0 := by
  intro core
  have hb : 0 < b := hd.trans hdb
  have hc : 0 < c := ha.trans hac
  have hw : uniqLength (((hullEdges core).filter fun e => e.1.2 == e.2.2).map edgeLength) = 0 := by
    simp [core, hullEdges, edgesFrom, hb.ne, hd.ne', hdb.ne', edgeLength, abs_of_pos ha, abs_of_pos hc,
      abs_of_pos (sub_pos.2 hac), uniqLength, List.eraseDups_cons, List.filter_cons]
    rw [if_neg hac.ne']
    split_ifs <;> simp [List.eraseDups_cons]
  have hl : uniqLength (((hullEdges core).filter fun e => !(e.1.2 == e.2.2)).map edgeLength) = 0 := by
    simp [core, hullEdges, edgesFrom, hb.ne, hd.ne', hdb.ne, hdb.ne', edgeLength, abs_of_pos hb, abs_of_pos hd,
      abs_of_neg (sub_neg.2 hdb), uniqLength, List.eraseDups_cons, List.filter_cons]
  constructor
  · simp [mimParams, hw, hl]
  · simp [core, doubleArea, hullEdges, edgesFrom]
    nlinarith [mul_pos ha hb, mul_pos hd hc]

/-- Violation: a MIM capacitor in the shape of a cross of five squares gets the area of one of them. -/
theorem mim_cross {a : Int} (ha : 0 < a) (unit : ℚ) :
    let core : List Vertex := [(0, a), (0, 2 * a), (a, 2 * a), (a, 3 * a), (2 * a, 3 * a), (2 * a, 2 * a), (3 * a, 2 * a),
      (3 * a, a), (2 * a, a), (2 * a, 0), (a, 0), (a, a)]
    5 * (mimParams false unit core).A = |doubleArea core| / 2 * unit ^ 2 := by
  intro core
  have e1 : 2 * a - a = a := by ring
  have e2 : a - 2 * a = -a := by ring
  have e3 : 3 * a - 2 * a = a := by ring
  have e4 : 2 * a - 3 * a = -a := by ring
  have n1 : a ≠ 2 * a := by omega
  have n2 : 2 * a ≠ 3 * a := by omega
  have hw : uniqLength (((hullEdges core).filter fun e => e.1.2 == e.2.2).map edgeLength) = a := by
    simp [core, hullEdges, edgesFrom, edgeLength, e1, e2, e3, e4, n1, n1.symm, n2, n2.symm, ha.ne, ha.ne', abs_of_pos ha,
      uniqLength, List.eraseDups_cons]
  have hl : uniqLength (((hullEdges core).filter fun e => !(e.1.2 == e.2.2)).map edgeLength) = a := by
    simp [core, hullEdges, edgesFrom, edgeLength, e1, e2, e3, e4, n1, n1.symm, n2, n2.symm, ha.ne, ha.ne', abs_of_pos ha,
      uniqLength, List.eraseDups_cons]
  have hA : |doubleArea core| = 10 * (a * a) := by
    have : doubleArea core = -(10 * (a * a)) := by
      simp [core, doubleArea, hullEdges, edgesFrom]
      ring
    rw [this, abs_neg, abs_of_pos]
    have := Int.mul_pos ha ha
    omega
  simp only [mimParams, hw, hl]
  rw [hA]
  push_cast
  ring

/-- A resistor with two ports: one device with its two terminals in order, and its width and length. -/
theorem measure_ex : extractGeneral 2 [[(0, 0), (0, 1), (5, 1), (5, 0)]]
      [[(5, 0), (5, 1), (6, 1), (6, 0)], [(-1, 0), (-1, 1), (0, 1), (0, 0)]]
      [[(5, 0), (5, 1), (6, 1), (6, 0)], [(-1, 0), (-1, 1), (0, 1), (0, 0)]] =
      some [[[(-1, 0), (-1, 1), (0, 1), (0, 0)], [(5, 0), (5, 1), (6, 1), (6, 0)]]] ∧
    calcRes (Rectangle.mk 0 0 5 1).edges [⟨5, 0, 6, 1⟩, ⟨-1, 0, 0, 1⟩] (Rectangle.mk 0 0 5 1).corners none = some ⟨1, 5, 0, 0⟩ := by
  refine ⟨?_, by decide⟩
  rw [extractGeneral, List.foldr_cons, List.foldr_nil, Option.bind_some, if_neg (by decide), sortPolygons_eq (by decide)]
  simp [List.mergeSort, List.MergeSort.Internal.splitInTwo, firstLe, vertexLe]

/-- The roles and polygons of a resistor alone: a marker and two ports. -/
def exRole (i : Fin 3) : Role := if i = 0 then .mark else .port

/-- Their polygons. -/
def exShape (i : Fin 3) : List Vertex :=
  if i = 0 then [(0, 0), (0, 1), (5, 1), (5, 0)] else if i = 1 then [(5, 0), (5, 1), (6, 1), (6, 0)]
  else [(-1, 0), (-1, 1), (0, 1), (0, 0)]

/-- A resistor with two ports is in a cluster of the kind of `resistor_alone_partial`. -/
theorem alone_ex : ∃ ts : List (List Vertex),
    extractGeneral 2 [exShape 0] (([0, 1, 2].filter fun s => exRole s = .port).map exShape) [exShape 1, exShape 2] = some [ts] ∧
      ts.Perm [exShape 1, exShape 2] := by
  refine resistor_alone_partial (role := exRole) (touch := fun i j => i = 0 ∨ j = 0) (m := 0) (a := 1) (b := 2) (shape := exShape) (by decide)
    (by decide) (by decide) (by decide) (.inr rfl) (.inr rfl) (by decide) (by decide) (fun s => ?_) (by decide) (by decide) (by decide)
    (List.Perm.refl _)
  constructor
  · intro _
    match s with
    | 0 => exact .refl _
    | 1 => exact Together.symm (.joined (.inr rfl) (by decide))
    | 2 => exact Together.symm (.joined (.inr rfl) (by decide))
  · exact fun _ => (by decide : ∀ s : Fin 3, s ∈ [0, 1, 2]) s

end Verif.Decks
