import Verif.Engine25.Overlaps
import Verif.Fringe.Props
import Verif.PexMode.Props
import Verif.Rcx25Netlist.Props

/-!
# The 2.5D engine from the layout to the netlist (C65, C66)
-/

namespace Verif.Engine25

open TechInfo (Tech Parasitics OverlapSpec OverlapIs)
open Overlap (Cell Poly netOf)
open Summary (Op SamePair recorded RNetwork CellResults)
open PexMode (Mode CapOp)
open Fringe (Rec)

/-! ### Specification -/

/-- Overlap capacitance between the nets `a` and `b`: over all pairs of layers, the area where one net faces the other,
times the capacitance per area of the pair of layers. -/
noncomputable def overlapTotal (t : Tech) (x : Context) (halo : ℤ) (names : List String) (cap : String → String → ℚ)
    (a b : String) : ℚ :=
  ∑ i ∈ Finset.range names.length, ∑ j ∈ (Finset.range names.length).filter (i < ·),
    ((Set.ncard {c | Faces t x halo names i j a b c} : ℚ) + Set.ncard {c | Faces t x halo names i j b a c}) * x.dbu ^ 2 *
      cap (names.getD j "") (names.getD i "") / 1000

/-- Capacitance of sidewall and fringe records between `a` and `b`. -/
noncomputable def edgeTotal (rnd : ℝ → ℚ) (a b : String) (recs : List Rec) : ℚ :=
  (recs.map fun
    | .sidewall c => if SamePair c.key.net1 c.key.net2 a b then c.capValue else 0
    | .fringe key cap => if SamePair key.netInside key.netOutside a b then rnd cap else 0).sum

/-- The records of one edge interval, as in C59: none for a short interval or without neighbours; otherwise the sidewall
record of the nearest polygon of the layer, if it has another net, and for every other layer the fringe records of the
part that is not shielded; nothing else. -/
def IntervalSpec (y : Fringe.Ctx) (k : Fringe.Kernel) (edgeNet : String) (iv : ℚ × ℚ) (nb : Dict Nat (List Poly))
    (recs : List Rec) : Prop :=
  ((nb = [] ∨ iv.2 - iv.1 ≤ 1) → recs = []) ∧
  (∀ key cap, .fringe key cap ∈ recs → ∃ j ps, (j, ps) ∈ nb ∧ j ≠ y.inside ∧ j < y.names.length ∧
    key.layerOutside = y.names.getD j "") ∧
  (1 < iv.2 - iv.1 →
    ((∀ ps, (y.inside, ps) ∉ nb) → Fringe.sidewalls recs = []) ∧
    (∀ ps, (y.inside, ps) ∈ nb → ∃ d p, Fringe.Nearest ps d p ∧ (p.net = edgeNet → Fringe.sidewalls recs = []) ∧
      (p.net ≠ edgeNet → ∃ c, Fringe.sidewalls recs = [c] ∧
        Fringe.SidewallLaw y.par (y.names.getD y.inside "") edgeNet y.dbu (iv.2 - iv.1) p c)) ∧
    ∃ near, Fringe.NearestLateral y nb near ∧ ∀ j, j ≠ y.inside → j < y.names.length →
      ((∀ ps, (j, ps) ∉ nb) → Fringe.fringesTo (y.names.getD j "") recs = []) ∧
      ∀ ps, (j, ps) ∈ nb → ∀ shield : Finset Cell, (∀ c, c ∈ shield ↔ Fringe.Shielded y nb near j c) →
        ∃ rs, Fringe.FringeRecs y k (y.names.getD j "") edgeNet iv ps shield rs ∧
          Fringe.fringesTo (y.names.getD j "") recs = Fringe.fringesTo (y.names.getD j "") rs)

/-! ### Auxiliary -/

theorem recorded_nil (a b : String) : recorded a b [] = 0 := rfl

theorem recorded_append (a b : String) (l m : List Op) : recorded a b (l ++ m) = recorded a b l + recorded a b m := by
  unfold recorded; rw [List.filter_append, List.map_append, List.sum_append]

theorem recorded_flatMap {α : Type} (a b : String) (l : List α) (f : α → List Op) :
    recorded a b (l.flatMap f) = (l.map fun e => recorded a b (f e)).sum := by
  induction l with
  | nil => rfl
  | cons e l ih => rw [List.flatMap_cons, recorded_append, ih, List.map_cons, List.sum_cons]

theorem recorded_networks (a b : String) (nets : List RNetwork) : recorded a b (nets.map Op.network) = 0 := by
  unfold recorded
  have : (nets.map Op.network).filter (fun op => decide (op.Couples a b)) = [] := by
    rw [List.filter_eq_nil_iff]
    intro op h
    obtain ⟨n, _, rfl⟩ := List.mem_map.1 h
    have hc : ¬ Op.Couples a b (Op.network n) := fun h => h
    simp only [decide_eq_true_eq]; exact hc
  rw [this]; rfl

theorem recorded_edge (rnd : ℝ → ℚ) (a b : String) (recs : List Rec) :
    recorded a b ((recs.map (recOp rnd)).map CapOp.toOp) = edgeTotal rnd a b recs := by
  unfold edgeTotal
  induction recs with
  | nil => rfl
  | cons r recs ih =>
    rw [List.map_cons, List.map_cons, List.map_cons, List.sum_cons, ← ih]
    unfold recorded
    rw [List.filter_cons]
    cases r with
    | sidewall c =>
      simp only [recOp, CapOp.toOp, Op.Couples]
      by_cases h : SamePair c.key.net1 c.key.net2 a b
      · simp [h, Op.cap]
      · simp [h]
    | fringe key cap =>
      simp only [recOp, CapOp.toOp, Op.Couples]
      by_cases h : SamePair key.netInside key.netOutside a b
      · simp [h, Op.cap]
      · simp [h]

theorem edgeTotal_flatMap {α : Type} (rnd : ℝ → ℚ) (a b : String) (l : List α) (f : α → List Rec) :
    edgeTotal rnd a b (l.flatMap f) = (l.map fun e => edgeTotal rnd a b (f e)).sum := by
  induction l with
  | nil => rfl
  | cons e l ih =>
    rw [List.flatMap_cons, List.map_cons, List.sum_cons, ← ih]
    unfold edgeTotal
    rw [List.map_append, List.sum_append]

/-- Coupling of overlap records of a polygon with net `net`. -/
theorem recorded_records (a b net : String) (hab : a ≠ b) (rs : List Summary.OverlapCap)
    (h : ∀ r ∈ rs, r.key.netBot = net) :
    recorded a b (rs.map fun r => Op.overlap r) =
      (if net = b then ((rs.filter fun r => decide (r.key.netTop = a)).map Summary.OverlapCap.capValue).sum else 0) +
      (if net = a then ((rs.filter fun r => decide (r.key.netTop = b)).map Summary.OverlapCap.capValue).sum else 0) := by
  induction rs with
  | nil => simp [recorded]
  | cons r rs ih =>
    have ih := ih (fun r hr => h r (by simp [hr]))
    have hr := h r (by simp)
    have h1 : recorded a b ((r :: rs).map fun r => Op.overlap r) =
        (if SamePair r.key.netTop r.key.netBot a b then r.capValue else 0) +
        recorded a b (rs.map fun r => Op.overlap r) := by
      rw [List.map_cons]
      unfold recorded
      rw [List.filter_cons]
      by_cases hs : SamePair r.key.netTop r.key.netBot a b
      · simp [Op.Couples, hs, Op.cap]
      · simp [Op.Couples, hs]
    rw [h1, ih, hr]
    have h2 : ∀ n, (((r :: rs).filter fun r => decide (r.key.netTop = n)).map Summary.OverlapCap.capValue).sum =
        (if r.key.netTop = n then r.capValue else 0) +
        ((rs.filter fun r => decide (r.key.netTop = n)).map Summary.OverlapCap.capValue).sum := by
      intro n
      rw [List.filter_cons]
      by_cases hn : r.key.netTop = n <;> simp [hn]
    rw [h2, h2]
    unfold SamePair
    by_cases hb : net = b
    · have ha : net ≠ a := fun e => hab (e ▸ hb)
      have hba : ¬ (b = a) := fun e => hab e.symm
      subst hb
      simp only [if_true, and_true, ha, and_false, or_false, if_false]
      ring
    · by_cases ha : net = a
      · subst ha
        simp only [if_true, and_true, hb, and_false, false_or, if_false]
        ring
      · simp [ha, hb]

/-- `Overlap.extract` puts the same records into the tables, in the same order. -/
theorem overlap_recorded (y : Overlap.Ctx) (regions : List (List Poly)) (nbh : Nat → Poly → Overlap.Neighborhood)
    (r : CellResults) :
    Overlap.extract y regions nbh r = ((overlapOps y regions nbh).map CapOp.toOp).foldl CellResults.apply r := by
  unfold Overlap.extract overlapOps
  have h1 : ∀ (rs : List Summary.OverlapCap) (r : CellResults), rs.foldl CellResults.addOverlapCap r =
      ((rs.map CapOp.overlap).map CapOp.toOp).foldl CellResults.apply r := by
    intro rs
    induction rs with
    | nil => intro r; rfl
    | cons c rs ih => intro r; exact ih _
  have h2 : ∀ (k : Nat) (l : List Poly) (r : CellResults),
      l.foldl (fun r p => (Overlap.neighbors y k p (nbh k p)).foldl CellResults.addOverlapCap r) r =
      ((l.flatMap fun p => (Overlap.neighbors y k p (nbh k p)).map CapOp.overlap).map CapOp.toOp).foldl
        CellResults.apply r := by
    intro k l
    induction l with
    | nil => intro r; rfl
    | cons p l ih =>
      intro r
      rw [List.foldl_cons, ih, h1, List.flatMap_cons, List.map_append, List.foldl_append]
  generalize regions.zipIdx = z
  induction z generalizing r with
  | nil => rfl
  | cons e z ih =>
    rw [List.foldl_cons, ih, h2, List.flatMap_cons, List.map_append, List.foldl_append]

theorem sum_zipIdx {α : Type} (l : List α) (f : α × Nat → ℚ) (dflt : α) :
    (l.zipIdx.map f).sum = ∑ i ∈ Finset.range l.length, f (l.getD i dflt, i) := by
  induction l using List.reverseRecOn with
  | nil => rfl
  | append_singleton l a ih =>
    rw [List.zipIdx_append, List.map_append, List.sum_append, ih, List.length_append, List.length_singleton,
      Finset.sum_range_succ]
    congr 1
    · refine Finset.sum_congr rfl fun i hi => ?_
      rw [List.getD_append _ _ _ _ (Finset.mem_range.1 hi)]
    · simp

variable {kl : KLayout} {t : Tech} {x : Context} {halo : ℤ} {d : Dict String (List Poly)}

open Classical in
/-- The overlap records between two nets. -/
theorem Setting.overlap_total (S : Setting kl t x halo d) (cap : String → String → ℚ)
    (hspec : ∀ i j, i < j → j < d.keys.length →
      ∃ s, OverlapIs t.parasitics (d.keys.getD j "") (d.keys.getD i "") s ∧
        s.cap = cap (d.keys.getD j "") (d.keys.getD i ""))
    (hnn : Overlap.NonNeg t.parasitics) (a b : String) (hab : a ≠ b) :
    recorded a b ((overlapOps ⟨d.keys, x.dbu, t.parasitics⟩ S.regions (kl.nbh S.regions)).map CapOp.toOp) =
      overlapTotal t x halo d.keys cap a b := by
  have hlen : S.regions.length = d.keys.length := by
    simp [Setting.regions, Dict.values, Dict.keys]
  unfold overlapOps
  rw [List.map_flatMap, recorded_flatMap, sum_zipIdx _ _ [], hlen]
  unfold overlapTotal
  refine Finset.sum_congr rfl fun i hi => ?_
  rw [Finset.mem_range] at hi
  obtain ⟨ps, hps, _⟩ := S.region hi
  have hL : S.regions.getD i [] = kl.merged ps := by
    rw [List.getD_eq_getElem?_getD, hps]; rfl
  simp only [hL]
  generalize hM : kl.merged ps = L at hps
  rw [List.map_flatMap, recorded_flatMap]
  -- per polygon
  have hpoly : ∀ p ∈ L, ∀ n n', n ≠ n' →
      (if netOf ⟨d.keys, x.dbu, t.parasitics⟩ i p = n' then
        (((Overlap.neighbors ⟨d.keys, x.dbu, t.parasitics⟩ i p (kl.nbh S.regions i p)).filter fun r =>
          decide (r.key.netTop = n)).map Summary.OverlapCap.capValue).sum else 0) =
      ∑ j ∈ (Finset.range d.keys.length).filter (i < ·),
        ((if netOf ⟨d.keys, x.dbu, t.parasitics⟩ i p = n' then
          (p.cells.filter fun c => Overlap.Owned ⟨d.keys, x.dbu, t.parasitics⟩ (kl.nbh S.regions i p) i n' c j n).card
          else 0 : ℕ) : ℚ) * x.dbu ^ 2 * cap (d.keys.getD j "") (d.keys.getD i "") / 1000 := by
    intro p hp n n' _
    by_cases hn : netOf ⟨d.keys, x.dbu, t.parasitics⟩ i p = n'
    · simp only [if_pos hn]
      rw [split_layers ⟨d.keys, x.dbu, t.parasitics⟩ S.stack.nodup i
        (Overlap.Ctx.name ⟨d.keys, x.dbu, t.parasitics⟩ i) n' n]
      · refine Finset.sum_congr rfl fun j hj => ?_
        simp only [Finset.mem_filter, Finset.mem_range] at hj
        obtain ⟨s, hs1, hs2⟩ := hspec i j hj.2 hj.1
        have := Overlap.overlap_exact ⟨d.keys, x.dbu, t.parasitics⟩ S.stack.nodup i hi p (kl.nbh S.regions i p)
          (fun k hk1 hk2 _ _ _ _ _ => by
            obtain ⟨s, hs, _⟩ := hspec i k hk1 hk2
            exact ⟨s, hs⟩) hnn j n s hj.1 hs1
        rw [hn] at this
        rw [this, ← hs2]
      · intro r hr
        obtain ⟨_, h2, h3, _, j, hj1, hj2, h4, _⟩ := Overlap.records_sound _ i hi p _ r hr
        exact ⟨h2, h3.trans hn, j, hj1, hj2, h4⟩
    · simp [hn]
  have hrec : ∀ p ∈ L, recorded a b
      (((Overlap.neighbors ⟨d.keys, x.dbu, t.parasitics⟩ i p (kl.nbh S.regions i p)).map CapOp.overlap).map CapOp.toOp) =
      ∑ j ∈ (Finset.range d.keys.length).filter (i < ·),
        (((if netOf ⟨d.keys, x.dbu, t.parasitics⟩ i p = b then
          (p.cells.filter fun c => Overlap.Owned ⟨d.keys, x.dbu, t.parasitics⟩ (kl.nbh S.regions i p) i b c j a).card
          else 0 : ℕ) : ℚ) +
        ((if netOf ⟨d.keys, x.dbu, t.parasitics⟩ i p = a then
          (p.cells.filter fun c => Overlap.Owned ⟨d.keys, x.dbu, t.parasitics⟩ (kl.nbh S.regions i p) i a c j b).card
          else 0 : ℕ) : ℚ)) * x.dbu ^ 2 * cap (d.keys.getD j "") (d.keys.getD i "") / 1000 := by
    intro p hp
    have hm : ((Overlap.neighbors ⟨d.keys, x.dbu, t.parasitics⟩ i p (kl.nbh S.regions i p)).map CapOp.overlap).map
        CapOp.toOp = (Overlap.neighbors ⟨d.keys, x.dbu, t.parasitics⟩ i p (kl.nbh S.regions i p)).map
          fun r => Op.overlap r := by
      rw [List.map_map]; rfl
    rw [hm, recorded_records a b (netOf ⟨d.keys, x.dbu, t.parasitics⟩ i p) hab _
      (fun r hr => (Overlap.records_sound _ i hi p _ r hr).2.2.1), hpoly p hp a b hab, hpoly p hp b a (Ne.symm hab),
      ← Finset.sum_add_distrib]
    refine Finset.sum_congr rfl fun j _ => ?_
    ring
  rw [List.map_congr_left hrec]
  -- exchange the sums
  have hex : ∀ (M : List Poly) (F : Poly → Nat → ℚ) (s : Finset Nat),
      (M.map fun p => ∑ j ∈ s, F p j).sum = ∑ j ∈ s, (M.map fun p => F p j).sum := by
    intro M F s
    induction M with
    | nil => simp
    | cons p M ih => simp only [List.map_cons, List.sum_cons, ih, Finset.sum_add_distrib]
  rw [hex]
  refine Finset.sum_congr rfl fun j hj => ?_
  simp only [Finset.mem_filter, Finset.mem_range] at hj
  have harea : ∀ n n', n ≠ n' → (L.map fun p => ((if netOf ⟨d.keys, x.dbu, t.parasitics⟩ i p = n' then
      (p.cells.filter fun c => Overlap.Owned ⟨d.keys, x.dbu, t.parasitics⟩ (kl.nbh S.regions i p) i n' c j n).card
      else 0 : ℕ) : ℚ)).sum = (Set.ncard {c | Faces t x halo d.keys i j n n' c} : ℚ) := by
    intro n n' hne
    rw [← S.area t.parasitics hj.2 hj.1 hps n n' hne]
    clear hex hrec hpoly hL hM hps
    induction L with
    | nil => rfl
    | cons p L ih =>
      rw [List.map_cons, List.sum_cons, ih, List.filter_cons]
      by_cases hp : netOf ⟨d.keys, x.dbu, t.parasitics⟩ i p = n'
      · simp [hp]
      · simp [hp]
  rw [← harea a b hab, ← harea b a (Ne.symm hab)]
  clear hex hrec hpoly hL hM hps harea
  induction L with
  | nil => simp
  | cons p L ih =>
    simp only [List.map_cons, List.sum_cons, ih]
    ring

/-! ### Theorems -/

/-- The layers of the cell and the polygons that are visited on them. -/
def Regions (kl : KLayout) (t : Tech) (x : Context) (halo : ℤ) (names : List String) (R : List (List Poly)) : Prop :=
  R.length = names.length ∧
  ∀ i < names.length, ∃ ps, R[i]? = some (kl.merged ps) ∧ ∀ p, p ∈ ps ↔ PolyOf t x halo (names.getD i "") p

open Classical in
/-- The capacitances of the netlist in terms of the runs over the edge intervals. -/
theorem netlist_records (kl : KLayout) (hkl : Faithful kl) (cf : String → String)
    (t : Tech) (x : Context) (mode : Mode) (hmode : mode = .CC ∨ mode = .RC) (scale : Bool) (halo : ℤ)
    (res : Except String (List RNetwork)) (c c' : Netlist.Circuit) (bb : Bool)
    (hrun : run kl cf t x mode scale halo res c bb = .ok c')
    (hno : ∀ d ∈ c.devices, d.clsName ≠ "C")
    (hshort : NoShorts t x halo) (hsub : ∀ l ∈ t.stack, IsMetal l → ¬ CanonicalIs t l.name "VSUBS")
    (hnn : Overlap.NonNeg t.parasitics) (cap : String → String → ℚ)
    (hspec : ∀ names, IsStack t x names → ∀ i j, i < j → j < names.length →
      ∃ s, OverlapIs t.parasitics (names.getD j "") (names.getD i "") s ∧
        s.cap = cap (names.getD j "") (names.getD i "")) :
    ∃ (names : List String) (R : List (List Poly))
      (out : Nat → String → (ℚ × ℚ) × Dict Nat (List Poly) → List Rec),
      IsStack t x names ∧ Regions kl t x halo names R ∧
      (∀ i < names.length, ∀ e ∈ kl.edges R i, ∀ v ∈ e.2,
        Fringe.onInterval ⟨names, i, x.dbu, scale, t.parasitics⟩ kl.kernel e.1 v.1 v.2 = .ok (out i e.1 v)) ∧
      ∀ a b, a ≠ b → Rcx25Netlist.parasiticCap c' a b = overlapTotal t x halo names cap a b +
        ∑ i ∈ Finset.range names.length, ((kl.edges R i).map fun e =>
          (e.2.map fun v => edgeTotal kl.rnd a b (out i e.1 v)).sum).sum := by
  unfold run at hrun
  rw [Exc.bind_ok] at hrun
  obtain ⟨cells, h1, h2⟩ := hrun
  unfold extract at h1
  rw [Exc.bind_ok] at h1
  obtain ⟨d, hd, h3⟩ := h1
  have S : Setting kl t x halo d := ⟨hkl, hd, hshort, hsub⟩
  have hreg : d.values.map kl.merged = S.regions := rfl
  simp only [hreg] at h3
  have hlen : S.regions.length = d.keys.length := by
    simp [Setting.regions, Dict.values, Dict.keys]
  cases hfr : Fringe.extract d.keys x.dbu scale t.parasitics kl.kernel (kl.edges S.regions) with
  | error m =>
    exfalso
    rw [hfr] at h3
    rcases hmode with rfl | rfl
    · cases h3
    · cases h3
  | ok recs =>
    rw [hfr] at h3
    obtain ⟨out, ho1, ho2⟩ := Fringe.extract_concat _ _ _ _ _ _ _ hfr
    have hcells : ∃ nets, cells = Summary.runCells [(x.cellName,
        ((overlapOps ⟨d.keys, x.dbu, t.parasitics⟩ S.regions (kl.nbh S.regions)).map CapOp.toOp ++
          (recs.map (recOp kl.rnd)).map CapOp.toOp) ++ List.map Op.network nets)] := by
      rcases hmode with rfl | rfl
      · refine ⟨[], ?_⟩
        have hh := (PexMode.unselected_ignored x.cellName
          (.ok (overlapOps ⟨d.keys, x.dbu, t.parasitics⟩ S.regions (kl.nbh S.regions)))
          (.ok (overlapOps ⟨d.keys, x.dbu, t.parasitics⟩ S.regions (kl.nbh S.regions)))
          (.ok (recs.map (recOp kl.rnd))) (.ok (recs.map (recOp kl.rnd))) res (.ok [])).2
        have h3' : PexMode.extract .CC x.cellName
          (.ok (overlapOps ⟨d.keys, x.dbu, t.parasitics⟩ S.regions (kl.nbh S.regions)))
          (.ok (recs.map (recOp kl.rnd))) res = .ok cells := h3
        rw [hh, PexMode.mode_selects] at h3'
        rw [← Except.ok.inj h3']
        rw [← List.map_append]
        rfl
      · cases res with
        | error m => cases h3
        | ok nets =>
          refine ⟨nets, ?_⟩
          have h3' : PexMode.extract .RC x.cellName
            (.ok (overlapOps ⟨d.keys, x.dbu, t.parasitics⟩ S.regions (kl.nbh S.regions)))
            (.ok (recs.map (recOp kl.rnd))) (.ok nets) = .ok cells := h3
          rw [PexMode.mode_selects] at h3'
          rw [← Except.ok.inj h3']
          rw [← List.map_append]
          rfl
    obtain ⟨nets, rfl⟩ := hcells
    refine ⟨d.keys, S.regions, out, S.stack, ⟨hlen, fun i hi => S.region hi⟩, ho1, ?_⟩
    · intro a b hab
      rw [Rcx25Netlist.netlist_total_matches_recordings cf c c' _ (by simp) bb hno h2 a b]
      simp only [List.map_cons, List.map_nil, List.sum_cons, List.sum_nil, add_zero]
      rw [recorded_append, recorded_append, recorded_networks, add_zero,
        S.overlap_total cap (hspec _ S.stack) hnn a b hab, recorded_edge, ho2, edgeTotal_flatMap]
      congr 1
      rw [← List.sum_toFinset _ List.nodup_range, List.toFinset_range]
      refine Finset.sum_congr rfl fun i _ => ?_
      rw [edgeTotal_flatMap]
      congr 1
      refine List.map_congr_left fun e _ => ?_
      rw [edgeTotal_flatMap]

open Classical in
/-- **C66.** In a run that extracts capacitances, the capacitors of the netlist between two nets `a` and `b` add up to:
the overlap capacitance of all areas where one net faces the other, plus the sidewall and fringe records of all edge
intervals of all layers. -/
theorem netlist_capacitance (kl : KLayout) (hkl : Faithful kl) (hk : Fringe.KernelOK kl.kernel) (cf : String → String)
    (t : Tech) (x : Context) (mode : Mode) (hmode : mode = .CC ∨ mode = .RC) (scale : Bool) (halo : ℤ)
    (res : Except String (List RNetwork)) (c c' : Netlist.Circuit) (bb : Bool)
    (hrun : run kl cf t x mode scale halo res c bb = .ok c')
    (hno : ∀ d ∈ c.devices, d.clsName ≠ "C")
    (hshort : NoShorts t x halo) (hsub : ∀ l ∈ t.stack, IsMetal l → ¬ CanonicalIs t l.name "VSUBS")
    (hnn : Overlap.NonNeg t.parasitics) (cap : String → String → ℚ)
    (hspec : ∀ names, IsStack t x names → ∀ i j, i < j → j < names.length →
      ∃ s, OverlapIs t.parasitics (names.getD j "") (names.getD i "") s ∧
        s.cap = cap (names.getD j "") (names.getD i ""))
    (hedges : ∀ R i, ∀ e ∈ kl.edges R i, ∀ v ∈ e.2, Fringe.Reported v.2) :
    ∃ (names : List String) (R : List (List Poly))
      (out : Nat → String → (ℚ × ℚ) × Dict Nat (List Poly) → List Rec),
      IsStack t x names ∧ R.length = names.length ∧
      (∀ i < names.length, ∃ ps, R[i]? = some (kl.merged ps) ∧ ∀ p, p ∈ ps ↔ PolyOf t x halo (names.getD i "") p) ∧
      (∀ i < names.length, ∀ e ∈ kl.edges R i, ∀ v ∈ e.2,
        IntervalSpec ⟨names, i, x.dbu, scale, t.parasitics⟩ kl.kernel e.1 v.1 v.2 (out i e.1 v)) ∧
      ∀ a b, a ≠ b → Rcx25Netlist.parasiticCap c' a b = overlapTotal t x halo names cap a b +
        ∑ i ∈ Finset.range names.length, ((kl.edges R i).map fun e =>
          (e.2.map fun v => edgeTotal kl.rnd a b (out i e.1 v)).sum).sum := by
  obtain ⟨names, R, out, h1, ⟨h2, h3⟩, h4, h5⟩ := netlist_records kl hkl cf t x mode hmode scale halo res c c' bb hrun hno
    hshort hsub hnn cap hspec
  refine ⟨names, R, out, h1, h2, h3, ?_, h5⟩
  intro i hi e he v hv
  have ho := h4 i hi e he v hv
  refine ⟨fun hs => ?_, fun key c hr => Fringe.interval_layers _ kl.kernel hk e.1 v.1 v.2 (hedges _ i e he v hv) _ ho
    key c hr, fun hl => ?_⟩
  · have hsk := Fringe.interval_skipped ⟨names, i, x.dbu, scale, t.parasitics⟩ kl.kernel e.1 v.1 v.2 hs
    rw [hsk] at ho
    exact (Except.ok.inj ho).symm
  · exact Fringe.interval_exact ⟨names, i, x.dbu, scale, t.parasitics⟩ hi h1.nodup kl.kernel hk e.1 v.1 hl v.2
      (hedges _ i e he v hv) _ ho

/-! ### An example that meets the assumptions -/

/-- Union of the shapes of every net. -/
def unite (ps : List Poly) : List Poly :=
  (firsts (ps.map Poly.net)).map fun n => ⟨n, (ps.filter fun p => decide (p.net = n)).foldr (fun p s => p.cells ∪ s) ∅⟩

theorem mem_foldr_union (l : List Poly) (c : Cell) :
    c ∈ l.foldr (fun p s => p.cells ∪ s) ∅ ↔ ∃ p ∈ l, c ∈ p.cells := by
  induction l with
  | nil => simp
  | cons p l ih => simp [ih]

/-- A KLayout that visits one polygon per net and reports all polygons of all layers as neighbours. -/
def exKL : KLayout where
  merged := unite
  nbh := fun R _ _ => R.zipIdx.map fun e => (e.2, e.1)
  edges := fun _ i => if i = 1 then [("A", [((0, 2), [(1, [⟨"B", {(0, 1)}⟩])])])] else []
  kernel := Fringe.rowKernel
  rnd := fun _ => 0

theorem zipIdx_get {α : Type} (R : List α) (k j : Nat) :
    Dict.get? ((R.zipIdx k).map fun e => (e.2, e.1)) (k + j) = R[j]? := by
  induction R generalizing k j with
  | nil => rfl
  | cons a R ih =>
    rw [List.zipIdx_cons, List.map_cons]
    cases j with
    | zero => simp [Dict.get?]
    | succ j =>
      have := ih (k + 1) j
      have hne : k ≠ k + (j + 1) := by omega
      rw [show k + (j + 1) = k + 1 + j by omega] at hne ⊢
      simp only [Dict.get?, List.getElem?_cons_succ] at this ⊢
      simp only [if_neg hne]
      exact this

theorem exFaithful : Faithful exKL where
  cover := by
    intro ps net c
    constructor
    · rintro ⟨p, hp, rfl, hc⟩
      obtain ⟨n, _, rfl⟩ := List.mem_map.1 hp
      obtain ⟨q, hq, hqc⟩ := (mem_foldr_union _ _).1 hc
      rw [List.mem_filter] at hq
      exact ⟨q, hq.1, of_decide_eq_true hq.2, hqc⟩
    · rintro ⟨p, hp, rfl, hc⟩
      refine ⟨_, List.mem_map_of_mem ((mem_firsts _ _).2 (List.mem_map_of_mem hp)), rfl, ?_⟩
      exact (mem_foldr_union _ _).2 ⟨p, List.mem_filter.2 ⟨hp, by simp⟩, hc⟩
  disjoint := by
    intro ps
    change (unite ps).Pairwise _
    unfold unite
    rw [List.pairwise_map]
    exact (nodup_firsts _).imp fun hne he => absurd he hne
  sound := by
    intro R i p j l h
    have h' := zipIdx_get R 0 j
    rw [Nat.zero_add] at h'
    exact ⟨l, h'.symm.trans h, fun q hq => hq⟩
  complete := by
    intro R i p j L K _ _ hK q hq _
    have h' := zipIdx_get R 0 j
    rw [Nat.zero_add] at h'
    exact ⟨K, h'.trans hK, hq⟩

/-- Two metals. -/
def exTech : Tech where
  layers := [{ name := "m1", drw := (1, 0) }, { name := "m2", drw := (2, 0) }]
  computed := [{ info := { name := "m1_con", drw := (1, 0) }, original := "m1" },
    { info := { name := "m2_con", drw := (2, 0) }, original := "m2" }]
  stack := [⟨"m1_con", .metal none⟩, ⟨"ild", .other⟩, ⟨"m2_con", .metal none⟩]
  parasitics := { substrates := [⟨"m1", 10, 1⟩, ⟨"m2", 5, 1⟩], overlaps := [⟨"m2", "m1", 50⟩],
                  sidewalls := [⟨"m1", 40, 1⟩] }

/-- Two wires on the lower metal, one on the upper metal. -/
def exCell : Context where
  cellName := "TOP"
  dbu := 1
  annotated := ⟨0, 0, 2, 2⟩
  internal := ⟨0, 0, 2, 2⟩
  extracted := [((1, 0), [[⟨"A", {(0, 0), (1, 0)}⟩, ⟨"B", {(0, 1)}⟩]]), ((2, 0), [[⟨"B", {(0, 0)}⟩], [⟨"C", {(1, 1)}⟩]])]

/-- The layers of the example. -/
noncomputable def exLayers : Dict String (List Poly) :=
  [("VSUBS", [⟨"", (Box.mk (-1) (-1) 3 3).cells⟩]), ("m1", [⟨"A", {(0, 0), (1, 0)}⟩, ⟨"B", {(0, 1)}⟩]),
   ("m2", [⟨"B", {(0, 0)}⟩, ⟨"C", {(1, 1)}⟩])]

theorem exLayers_ok : layerRegions exTech exCell 1 = .ok exLayers := rfl

theorem exNoShorts : NoShorts exTech exCell 1 := by
  obtain ⟨hs, hp⟩ := layers_exact _ _ _ _ exLayers_ok
  intro n p q h1 h2 c hc1 hc2
  have hn : n ∈ exLayers.keys := by
    rw [hs.mem]
    rcases h1 with ⟨h, _⟩ | ⟨l, hl, rs, hg, _⟩
    · exact Or.inl h
    · exact Or.inr ⟨l, hl, rs, hg⟩
  have key : ∀ ps, exLayers.get? n = some ps → p ∈ ps ∧ q ∈ ps :=
    fun ps h => ⟨(hp _ _ h p).2 h1, (hp _ _ h q).2 h2⟩
  simp only [exLayers, Dict.keys, List.map_cons, List.map_nil, List.mem_cons, List.not_mem_nil, or_false] at hn
  rcases hn with rfl | rfl | rfl
  · obtain ⟨k1, k2⟩ := key _ rfl
    rw [List.mem_singleton] at k1 k2
    rw [k1, k2]
  · obtain ⟨k1, k2⟩ := key _ rfl
    simp only [List.mem_cons, List.not_mem_nil, or_false] at k1 k2
    rcases k1 with rfl | rfl <;> rcases k2 with rfl | rfl
    · rfl
    · simp only [Finset.mem_insert, Finset.mem_singleton] at hc1 hc2
      subst hc2; revert hc1; decide
    · simp only [Finset.mem_insert, Finset.mem_singleton] at hc1 hc2
      subst hc1; revert hc2; decide
    · rfl
  · obtain ⟨k1, k2⟩ := key _ rfl
    simp only [List.mem_cons, List.not_mem_nil, or_false] at k1 k2
    rcases k1 with rfl | rfl <;> rcases k2 with rfl | rfl
    · rfl
    · simp only [Finset.mem_singleton] at hc1 hc2
      subst hc2; revert hc1; decide
    · simp only [Finset.mem_singleton] at hc1 hc2
      subst hc1; revert hc2; decide
    · rfl

theorem exRun : ∃ c', run exKL id exTech exCell .CC true 1 (.ok []) ⟨["A", "B"], []⟩ true = .ok c' := by
  have key : (run exKL id exTech exCell .CC true 1 (.ok []) ⟨["A", "B"], []⟩ true).isOk = true := by decide +kernel
  cases h : run exKL id exTech exCell .CC true 1 (.ok []) ⟨["A", "B"], []⟩ true with
  | ok c' => exact ⟨c', rfl⟩
  | error m => rw [h] at key; cases key

/-- The netlist of the example: 1 µm² of overlap with 50 aF/µm² and 2 µm of sidewalls at a distance of 1 µm. -/
theorem exNetlist : (run exKL id exTech exCell .CC true 1 (.ok []) ⟨["A", "B"], []⟩ true).toOption.map (fun c' =>
    Rcx25Netlist.parasiticCap c' "A" "B") = some (1 * 50 / 1000 + 2 * 40 / (1 + 1) / 2 / 1000) := by decide +kernel

theorem exSpec (names : List String) (h : IsStack exTech exCell names) (i j : Nat) (hij : i < j)
    (hj : j < names.length) : ∃ s, OverlapIs exTech.parasitics (names.getD j "") (names.getD i "") s ∧
      s.cap = (if names.getD i "" = "m1" then 50 else if names.getD j "" = "m1" then 10 else 5) := by
  obtain rfl := h.unique (layers_exact _ _ _ _ exLayers_ok).1
  have hj' : j < 3 := hj
  have : (i = 0 ∧ j = 1) ∨ (i = 0 ∧ j = 2) ∨ (i = 1 ∧ j = 2) := by omega
  rcases this with ⟨rfl, rfl⟩ | ⟨rfl, rfl⟩ | ⟨rfl, rfl⟩
  · refine ⟨⟨"m1", "VSUBS", 10⟩, Or.inr ⟨?_, rfl, ⟨"m1", 10, 1⟩, ⟨[], [⟨"m2", 5, 1⟩], rfl, rfl, ?_⟩, rfl⟩, rfl⟩
    · decide
    · decide
  · refine ⟨⟨"m2", "VSUBS", 5⟩, Or.inr ⟨?_, rfl, ⟨"m2", 5, 1⟩, ⟨[⟨"m1", 10, 1⟩], [], rfl, rfl, ?_⟩, rfl⟩, rfl⟩
    · decide
    · decide
  · refine ⟨⟨"m2", "m1", 50⟩, Or.inl ⟨[], [], rfl, ⟨rfl, rfl⟩, ?_⟩, rfl⟩
    decide

example : ∃ c' names R, ∃ out : Nat → String → (ℚ × ℚ) × Dict Nat (List Poly) → List Rec, run exKL id exTech exCell .CC true 1 (.ok []) ⟨["A", "B"], []⟩ true = .ok c' ∧
    IsStack exTech exCell names ∧ ∀ a b, a ≠ b → Rcx25Netlist.parasiticCap c' a b =
      overlapTotal exTech exCell 1 names
        (fun a b => if b = "m1" then 50 else if a = "m1" then 10 else 5) a b +
        ∑ i ∈ Finset.range names.length, ((exKL.edges R i).map fun e =>
          (e.2.map fun v => edgeTotal exKL.rnd a b (out i e.1 v)).sum).sum := by
  obtain ⟨c', h⟩ := exRun
  obtain ⟨names, R, out, h1, _, _, _, h2⟩ := netlist_capacitance exKL exFaithful Fringe.rowKernel_ok id exTech exCell .CC
    (Or.inl rfl) true 1 (.ok []) _ c' true h (by decide) exNoShorts (by
      intro l hl hm hc
      rw [← canonical_iff] at hc
      clear hm
      revert hc hl
      revert l
      decide +kernel) (by constructor <;> decide +kernel)
      (fun a b => if b = "m1" then 50 else if a = "m1" then 10 else 5) exSpec (by
      intro R i e he v hv
      by_cases hi : i = 1
      · subst hi
        simp only [exKL, if_true, List.mem_singleton] at he
        subst he
        simp only [List.mem_singleton] at hv
        subst hv
        refine ⟨by decide, ?_⟩
        intro e he
        simp only [List.mem_singleton] at he
        subst he
        refine ⟨by simp, ?_⟩
        intro p hp
        simp only [List.mem_singleton] at hp
        subst hp
        exact ⟨(0, 1), by simp⟩
      · simp [exKL, hi] at he)
  exact ⟨c', names, R, out, h, h1, h2⟩

end Verif.Engine25
