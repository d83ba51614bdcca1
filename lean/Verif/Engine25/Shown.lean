import Verif.Engine25.Edges
import Verif.Reporter.Props

/-!
# The sidewall and fringe extractor with its report

Model of `klayout_pex/rcx25/c/geometry_restorer.py` and of the calls of the reporter in
`klayout_pex/rcx25/c/sidewall_and_fringe_extractor.py`: what `Fringe` leaves out. The visitor works in the coordinates of
the turned edge; the shapes are turned back before they are put into the report.
-/

namespace Verif.Engine25

open TechInfo (Tech Parasitics OverlapSpec SideOverlapSpec)
open Overlap (Cell Poly)
open Shapes (Pt)
open PexMode (CapOp)
open Reporter (Act)
open Fringe (Rec Ctx Kernel Neighborhood Lateral)

/-- Shapes of the report: an edge (`kdb.Edge`) with its two ends, or a polygon (or region), given by the cells it covers. -/
inductive Figure where
  | edge (a b : Pt)
  | cells (s : Finset Cell)

/-- The transformation of `to_original_trans(edge)` (KLayout) on points: the beginning of the edge is the image of the
origin, the edge runs along the image of the x axis. -/
def Side.point (s : Side) (u v : ℤ) : Pt :=
  match s.dir with
  | .right => (s.x + u, s.y + v)
  | .up => (s.x - v, s.y + u)
  | .left => (s.x - u, s.y - v)
  | .down => (s.x + v, s.y - u)

/-- `restore_edge_interval`, geometry_restorer.py 35–37. The ends of an interval are integers; `kdb.Point` takes them over. -/
def restoreInterval (s : Side) (iv : ℚ × ℚ) : Figure := .edge (s.point ⌊iv.1⌋ 0) (s.point ⌊iv.2⌋ 0)

/-- `restore_edge`, geometry_restorer.py 39–40, for the edge of `nearest_edge`, which runs to the left. -/
def restoreEdge (s : Side) (e : ℤ × ℤ × ℤ) : Figure := .edge (s.point e.2.2 e.1) (s.point e.2.1 e.1)

/-- `restore_polygon`, geometry_restorer.py 42–43 (`restore_region`, 45–46, is the same for regions and not used). -/
def restorePolygon (s : Side) (q : Finset Cell) : Figure := .cells (q.image fun c => s.cell c.1 c.2)

/-- `emit_sidewall` with the report, sidewall_and_fringe_extractor.py 256–311. -/
def emitSidewallShown (x : Ctx) (s : Side) (edgeNet : String) (iv : ℚ × ℚ) (p : Poly) : Except String (List (Act Figure)) := do
  let cs ← Fringe.emitSidewall x edgeNet iv p
  return cs.map fun c => .sidewall c (restoreInterval s iv) (restoreEdge s (Fringe.nearestEdge p))

open Classical in
/-- The capacitance loop of `emit_fringe` with the report, sidewall_and_fringe_extractor.py 415–466; `lat` is the lateral
shield, `rnd` the rounding to a float. -/
noncomputable def fringeLoopShown (x : Ctx) (rnd : ℝ → ℚ) (s : Side) (inside insideNet outside : String) (iv : ℚ × ℚ)
    (overlap : OverlapSpec) (side : SideOverlapSpec) (lat : Option (Finset Cell)) :
    List (String × Finset Cell) → Except String (List (Act Figure))
  | [] => .ok []
  | (net, q) :: rest =>
    let near := if Fringe.yLow q < 0 then 0 else Fringe.yLow q
    let far := if Fringe.yHigh q < 0 then 0 else Fringe.yHigh q
    if far < near then .error "AssertionError"
    else if far = near then .ok []
    else do
      let cap ← Fringe.fringeCap x ((iv.2 - iv.1 : ℚ) : ℝ) near far overlap side
      let acts ← fringeLoopShown x rnd s inside insideNet outside iv overlap side lat rest
      if cap > 1 / 10000 then
        return .sideoverlap ⟨⟨inside, insideNet, outside, net⟩, rnd cap⟩ (restoreInterval s iv) (restorePolygon s q)
          (lat.map (restorePolygon s)) :: acts
      else return acts

/-- `emit_fringe` with the report, sidewall_and_fringe_extractor.py 349–466. -/
noncomputable def emitFringeShown (x : Ctx) (rnd : ℝ → ℚ) (k : Kernel) (s : Side) (outside edgeNet : String) (iv : ℚ × ℚ)
    (ps : List Poly) (shield : Finset Cell) (lat : Option (Finset Cell)) : Except String (List (Act Figure)) := do
  let inside := x.names.getD x.inside ""
  let insideNet := Fringe.layerNet inside edgeNet
  let specs ← Fringe.fringeSpecs x.par inside outside
  fringeLoopShown x rnd s inside insideNet outside iv specs.1 specs.2 lat
    ((Fringe.unshielded k insideNet outside shield ps).flatMap fun e => e.2.map fun q => (e.1, q))

/-- One iteration of the lateral loop with the report, sidewall_and_fringe_extractor.py 191–215. -/
def lateralStepShown (x : Ctx) (s : Side) (edgeNet : String) (iv : ℚ × ℚ) (l : Lateral × List (Act Figure))
    (e : Nat × List Poly) : Except String (Lateral × List (Act Figure)) :=
  if e.1 = x.names.length then do
    let n ← Fringe.findNearest e.2
    return (l.1.update n.1 n.2, l.2)
  else if x.inside = e.1 then do
    let n ← Fringe.findNearest e.2
    let r ← emitSidewallShown x s edgeNet iv n.2
    return (l.1.update n.1 n.2, l.2 ++ r)
  else return l

/-- `lateral_shield`, sidewall_and_fringe_extractor.py 217–224. -/
noncomputable def shieldOf (x : Ctx) (near : Option (Option ℤ × Poly)) : Option (Finset Cell) :=
  near.map fun n => Fringe.lateralShield x (some n)

/-- The fringe loop with the report, sidewall_and_fringe_extractor.py 226–254. -/
noncomputable def fringeStepShown (x : Ctx) (rnd : ℝ → ℚ) (k : Kernel) (s : Side) (edgeNet : String) (iv : ℚ × ℚ)
    (nb : Dict Nat (List Poly)) (near : Option (Option ℤ × Poly)) (acts : List (Act Figure)) (e : Nat × List Poly) :
    Except String (List (Act Figure)) :=
  if x.inside = e.1 then return acts
  else if e.1 < x.names.length then do
    let r ← emitFringeShown x rnd k s (x.names.getD e.1 "") edgeNet iv e.2
      (Fringe.fringeShield x nb (Fringe.lateralShield x near) e.1) (shieldOf x near)
    return acts ++ r
  else return acts

/-- Body of the interval loop of `on_edge` with the report, sidewall_and_fringe_extractor.py 165–254. -/
noncomputable def onIntervalShown (x : Ctx) (rnd : ℝ → ℚ) (k : Kernel) (s : Side) (edgeNet : String) (iv : ℚ × ℚ)
    (nb : Dict Nat (List Poly)) : Except String (List (Act Figure)) :=
  if nb.isEmpty then return []
  else if iv.2 - iv.1 ≤ 1 then return []
  else do
    let l ← nb.foldlM (lateralStepShown x s edgeNet iv) (⟨none, []⟩, [])
    nb.foldlM (fringeStepShown x rnd k s edgeNet iv nb l.1.nearest) l.2

/-- The debug output of an edge, sidewall_and_fringe_extractor.py 158–163: the edge itself and the polygons of the
neighbourhood, turned back (extraction_reporter.py 231–239). `text` writes an interval. -/
def neighborhoodShown (x : Ctx) (text : ℚ × ℚ → String) (s : Side) (edgeNet : String) (n : Neighborhood) : Act Figure :=
  .neighborhood (x.names.getD x.inside "") edgeNet x.names (.edge (s.point 0 0) (s.point s.len 0))
    (n.map fun v => (text v.1, v.2.map fun ch => (ch.1, ch.2.map fun p => restorePolygon s p.cells)))

/-- `on_edge` with the report, sidewall_and_fringe_extractor.py 146–254. -/
noncomputable def onEdgeShown (x : Ctx) (rnd : ℝ → ℚ) (k : Kernel) (debug : Bool) (text : ℚ × ℚ → String) (s : Side)
    (edgeNet : String) (n : Neighborhood) : Except String (List (Act Figure)) :=
  n.foldlM (fun acts e => do return acts ++ (← onIntervalShown x rnd k s edgeNet e.1 e.2))
    (if debug then [neighborhoodShown x text s edgeNet n] else [])

/-- `extract` with the report, sidewall_and_fringe_extractor.py 66–100: `edges i` are the edges of layer `i` with their
net and the neighbourhoods that KLayout reports. -/
noncomputable def extractShown (names : List String) (dbu : ℚ) (scale : Bool) (par : Parasitics) (rnd : ℝ → ℚ) (k : Kernel)
    (debug : Bool) (text : ℚ × ℚ → String) (edges : Nat → List (Side × String × Neighborhood)) :
    Except String (List (Act Figure)) :=
  (List.range names.length).foldlM (fun acts i => do
    let rs ← (edges i).foldlM (fun rs e => do
      return rs ++ (← onEdgeShown ⟨names, i, dbu, scale, par⟩ rnd k debug text e.1 e.2.1 e.2.2)) []
    return acts ++ rs) []

/-! ### The records are those of the extraction -/

/-- The record of an action. -/
def recordOf : Act Figure → Option CapOp
  | .overlap c _ _ _ => some (.overlap c)
  | .sidewall c _ _ => some (.sidewall c)
  | .sideoverlap c _ _ _ => some (.sideoverlap c)
  | .neighborhood .. => none

theorem fringeLoop_refines (x : Ctx) (rnd : ℝ → ℚ) (s : Side) (inside insideNet outside : String) (iv : ℚ × ℚ)
    (overlap : OverlapSpec) (side : SideOverlapSpec) (lat : Option (Finset Cell)) (l : List (String × Finset Cell)) :
    (fringeLoopShown x rnd s inside insideNet outside iv overlap side lat l).map (·.filterMap recordOf) =
      (Fringe.fringeLoop x inside insideNet outside iv overlap side l).map (·.map (recOp rnd)) := by
  induction l with
  | nil => rfl
  | cons e l ih =>
    obtain ⟨net, q⟩ := e
    rw [fringeLoopShown, Fringe.fringeLoop]
    generalize (if Fringe.yLow q < 0 then 0 else Fringe.yLow q) = near
    generalize (if Fringe.yHigh q < 0 then 0 else Fringe.yHigh q) = far
    split_ifs with h1 h2
    · rfl
    · rfl
    · cases hc : Fringe.fringeCap x ((iv.2 - iv.1 : ℚ) : ℝ) (near : ℝ) (far : ℝ) overlap side with
      | error m => rfl
      | ok cap =>
        cases h3 : fringeLoopShown x rnd s inside insideNet outside iv overlap side lat l with
        | error m =>
          cases h4 : Fringe.fringeLoop x inside insideNet outside iv overlap side l with
          | error m' => rw [h3, h4] at ih; cases ih; rfl
          | ok r => rw [h3, h4] at ih; cases ih
        | ok a =>
          cases h4 : Fringe.fringeLoop x inside insideNet outside iv overlap side l with
          | error m' => rw [h3, h4] at ih; cases ih
          | ok r =>
            rw [h3, h4] at ih
            have ih := Except.ok.inj ih
            show Except.map _ (if cap > 1 / 10000 then _ else _) = Except.map _ (if cap > 1 / 10000 then _ else _)
            split_ifs
            · exact congrArg Except.ok (congrArg (_ :: ·) ih)
            · exact congrArg Except.ok ih

theorem emitFringe_refines (x : Ctx) (rnd : ℝ → ℚ) (k : Kernel) (s : Side) (outside edgeNet : String) (iv : ℚ × ℚ)
    (ps : List Poly) (shield : Finset Cell) (lat : Option (Finset Cell)) :
    (emitFringeShown x rnd k s outside edgeNet iv ps shield lat).map (·.filterMap recordOf) =
      (Fringe.emitFringe x k outside edgeNet iv ps shield).map (·.map (recOp rnd)) := by
  unfold emitFringeShown Fringe.emitFringe
  simp only
  cases Fringe.fringeSpecs x.par (x.names.getD x.inside "") outside with
  | error m => rfl
  | ok sp => exact fringeLoop_refines x rnd s _ _ _ iv _ _ lat _

theorem fringeStep_refines (x : Ctx) (rnd : ℝ → ℚ) (k : Kernel) (s : Side) (edgeNet : String) (iv : ℚ × ℚ)
    (nb0 : Dict Nat (List Poly)) (near : Option (Option ℤ × Poly)) (nb : List (Nat × List Poly)) (acts : List (Act Figure))
    (recs : List Rec) (h : acts.filterMap recordOf = recs.map (recOp rnd)) :
    (nb.foldlM (fringeStepShown x rnd k s edgeNet iv nb0 near) acts).map (·.filterMap recordOf) =
      (nb.foldlM (Fringe.fringeStep x k edgeNet iv nb0 (Fringe.lateralShield x near)) recs).map (·.map (recOp rnd)) := by
  induction nb generalizing acts recs with
  | nil => exact congrArg Except.ok h
  | cons e nb ih =>
    rw [List.foldlM_cons, List.foldlM_cons]
    unfold fringeStepShown Fringe.fringeStep
    by_cases h1 : x.inside = e.1
    · rw [if_pos h1, if_pos h1]; exact ih acts recs h
    · rw [if_neg h1, if_neg h1]
      by_cases h2 : e.1 < x.names.length
      · rw [if_pos h2, if_pos h2]
        have hr := emitFringe_refines x rnd k s (x.names.getD e.1 "") edgeNet iv e.2
          (Fringe.fringeShield x nb0 (Fringe.lateralShield x near) e.1) (shieldOf x near)
        cases h3 : emitFringeShown x rnd k s (x.names.getD e.1 "") edgeNet iv e.2
          (Fringe.fringeShield x nb0 (Fringe.lateralShield x near) e.1) (shieldOf x near) with
        | error m =>
          cases h4 : Fringe.emitFringe x k (x.names.getD e.1 "") edgeNet iv e.2
            (Fringe.fringeShield x nb0 (Fringe.lateralShield x near) e.1) with
          | error m' => rw [h3, h4] at hr; cases hr; rfl
          | ok r => rw [h3, h4] at hr; cases hr
        | ok a =>
          cases h4 : Fringe.emitFringe x k (x.names.getD e.1 "") edgeNet iv e.2
            (Fringe.fringeShield x nb0 (Fringe.lateralShield x near) e.1) with
          | error m' => rw [h3, h4] at hr; cases hr
          | ok r =>
            rw [h3, h4] at hr
            have hr := Except.ok.inj hr
            refine ih (acts ++ a) (recs ++ r) ?_
            rw [List.filterMap_append, List.map_append, h]
            exact congrArg _ hr
      · rw [if_neg h2, if_neg h2]; exact ih acts recs h

theorem lateral_refines (x : Ctx) (rnd : ℝ → ℚ) (s : Side) (edgeNet : String) (iv : ℚ × ℚ) (nb : List (Nat × List Poly))
    (l : Lateral) (l' : Lateral) (acts : List (Act Figure)) (hn : l.nearest = l'.nearest)
    (h : acts.filterMap recordOf = l'.recs.map (fun c => recOp rnd (.sidewall c))) :
    (nb.foldlM (lateralStepShown x s edgeNet iv) (l, acts)).map (fun r => (r.1.nearest, r.2.filterMap recordOf)) =
      (nb.foldlM (Fringe.lateralStep x edgeNet iv) l').map
        (fun r => (r.nearest, r.recs.map fun c => recOp rnd (.sidewall c))) := by
  have hupd : ∀ (a b : Lateral) d p, a.nearest = b.nearest → (a.update d p).nearest = (b.update d p).nearest ∧
      (b.update d p).recs = b.recs := by
    intro a b d p hab
    unfold Lateral.update
    rw [hab]
    cases hb : b.nearest with
    | none => exact ⟨rfl, rfl⟩
    | some n =>
      simp only
      split_ifs
      · exact ⟨rfl, rfl⟩
      · exact ⟨hab, rfl⟩
  induction nb generalizing l l' acts with
  | nil => exact congrArg Except.ok (by simp only [hn, h])
  | cons e nb ih =>
    rw [List.foldlM_cons, List.foldlM_cons]
    unfold lateralStepShown Fringe.lateralStep
    by_cases h1 : e.1 = x.names.length
    · rw [if_pos h1, if_pos h1]
      cases Fringe.findNearest e.2 with
      | error m => rfl
      | ok n =>
        obtain ⟨u1, u2⟩ := hupd l l' n.1 n.2 hn
        exact ih _ _ _ u1 (by rw [u2]; exact h)
    · rw [if_neg h1, if_neg h1]
      by_cases h2 : x.inside = e.1
      · rw [if_pos h2, if_pos h2]
        cases Fringe.findNearest e.2 with
        | error m => rfl
        | ok n =>
          unfold emitSidewallShown
          cases hc : Fringe.emitSidewall x edgeNet iv n.2 with
          | error m =>
            show Except.map _ (Except.bind (Except.bind (Fringe.emitSidewall x edgeNet iv n.2) _ |>.bind _) _) =
              Except.map _ (Except.bind (Except.bind (Fringe.emitSidewall x edgeNet iv n.2) _) _)
            rw [hc]; rfl
          | ok cs =>
            obtain ⟨u1, u2⟩ := hupd l l' n.1 n.2 hn
            show Except.map _ (Except.bind (Except.bind (Fringe.emitSidewall x edgeNet iv n.2) _ |>.bind _) _) =
              Except.map _ (Except.bind (Except.bind (Fringe.emitSidewall x edgeNet iv n.2) _) _)
            rw [hc]
            refine ih (l.update n.1 n.2) { l'.update n.1 n.2 with recs := l'.recs ++ cs } _ u1 ?_
            rw [List.filterMap_append, List.map_append, h, List.filterMap_map]
            congr 1
            exact congrFun (List.filterMap_eq_map (f := fun c => recOp rnd (.sidewall c))) cs
      · rw [if_neg h2, if_neg h2]; exact ih _ _ _ hn h

theorem onInterval_refines (x : Ctx) (rnd : ℝ → ℚ) (k : Kernel) (s : Side) (edgeNet : String) (iv : ℚ × ℚ)
    (nb : Dict Nat (List Poly)) :
    (onIntervalShown x rnd k s edgeNet iv nb).map (·.filterMap recordOf) =
      (Fringe.onInterval x k edgeNet iv nb).map (·.map (recOp rnd)) := by
  unfold onIntervalShown Fringe.onInterval
  split_ifs
  · rfl
  · rfl
  · have h := lateral_refines x rnd s edgeNet iv nb ⟨none, []⟩ ⟨none, []⟩ [] rfl rfl
    cases h1 : List.foldlM (lateralStepShown x s edgeNet iv) ((⟨none, []⟩ : Lateral), ([] : List (Act Figure))) nb with
    | error m =>
      cases h2 : List.foldlM (Fringe.lateralStep x edgeNet iv) ⟨none, []⟩ nb with
      | error m' => rw [h1, h2] at h; cases h; rfl
      | ok r => rw [h1, h2] at h; cases h
    | ok a =>
      cases h2 : List.foldlM (Fringe.lateralStep x edgeNet iv) ⟨none, []⟩ nb with
      | error m' => rw [h1, h2] at h; cases h
      | ok r =>
        rw [h1, h2] at h
        have h := Except.ok.inj h
        have e1 : a.1.nearest = r.nearest := congrArg Prod.fst h
        have e2 : a.2.filterMap recordOf = _ := congrArg Prod.snd h
        show Except.map _ (List.foldlM (fringeStepShown x rnd k s edgeNet iv nb a.1.nearest) a.2 nb) =
          Except.map _ (List.foldlM (Fringe.fringeStep x k edgeNet iv nb (Fringe.lateralShield x r.nearest))
            (r.recs.map .sidewall) nb)
        rw [e1]
        refine fringeStep_refines x rnd k s edgeNet iv nb r.nearest nb a.2 _ ?_
        rw [e2, List.map_map]
        rfl

/-- Loops that append lists, with a translation of the lists. -/
theorem foldlM_refines {α β γ δ : Type} (f : α → Except String (List β)) (g : α → Except String (List γ))
    (tr : List β → List δ) (tr' : List γ → List δ) (htr : ∀ a b, tr (a ++ b) = tr a ++ tr b)
    (htr' : ∀ a b, tr' (a ++ b) = tr' a ++ tr' b) (hfg : ∀ a, (f a).map tr = (g a).map tr') (l : List α)
    (acc : List β) (acc' : List γ) (h : tr acc = tr' acc') :
    (l.foldlM (fun r a => do return r ++ (← f a)) acc).map tr = (l.foldlM (fun r a => do return r ++ (← g a)) acc').map tr' := by
  induction l generalizing acc acc' with
  | nil => exact congrArg Except.ok h
  | cons a l ih =>
    rw [List.foldlM_cons, List.foldlM_cons]
    have := hfg a
    cases h1 : f a with
    | error m =>
      cases h2 : g a with
      | error m' => rw [h1, h2] at this; cases this; rfl
      | ok r => rw [h1, h2] at this; cases this
    | ok b =>
      cases h2 : g a with
      | error m' => rw [h1, h2] at this; cases this
      | ok r =>
        rw [h1, h2] at this
        have := Except.ok.inj this
        refine ih (acc ++ b) (acc' ++ r) ?_
        rw [htr, htr', h, this]

theorem onEdge_refines (x : Ctx) (rnd : ℝ → ℚ) (k : Kernel) (debug : Bool) (text : ℚ × ℚ → String) (s : Side)
    (edgeNet : String) (n : Neighborhood) :
    (onEdgeShown x rnd k debug text s edgeNet n).map (·.filterMap recordOf) =
      (Fringe.onEdge x k edgeNet n).map (·.map (recOp rnd)) := by
  unfold onEdgeShown Fringe.onEdge
  exact foldlM_refines (fun e => onIntervalShown x rnd k s edgeNet e.1 e.2) (fun e => Fringe.onInterval x k edgeNet e.1 e.2)
    (·.filterMap recordOf) (·.map (recOp rnd)) (fun _ _ => List.filterMap_append) (fun _ _ => List.map_append)
    (fun e => onInterval_refines x rnd k s edgeNet e.1 e.2) n (if debug then [neighborhoodShown x text s edgeNet n] else [])
    [] (by cases debug <;> rfl)

/-- The extraction with its report records the same capacitances, in the same order, as `Fringe.extract`, and ends with
the same exceptions. -/
theorem extract_refines (names : List String) (dbu : ℚ) (scale : Bool) (par : Parasitics) (rnd : ℝ → ℚ) (k : Kernel)
    (debug : Bool) (text : ℚ × ℚ → String) (edges : Nat → List (Side × String × Neighborhood)) :
    (extractShown names dbu scale par rnd k debug text edges).map (·.filterMap recordOf) =
      (Fringe.extract names dbu scale par k fun i => (edges i).map Prod.snd).map (·.map (recOp rnd)) := by
  unfold extractShown Fringe.extract
  let F : Nat → Except String (List (Act Figure)) := fun i => (edges i).foldlM (fun rs e => do
    return rs ++ (← onEdgeShown ⟨names, i, dbu, scale, par⟩ rnd k debug text e.1 e.2.1 e.2.2)) []
  let G : Nat → Except String (List Rec) := fun i => ((edges i).map Prod.snd).foldlM (fun rs e => do
    return rs ++ (← Fringe.onEdge ⟨names, i, dbu, scale, par⟩ k e.1 e.2)) []
  have hin : ∀ i, (F i).map (·.filterMap recordOf) = (G i).map (·.map (recOp rnd)) := by
    intro i
    simp only [F, G]
    rw [List.foldlM_map]
    exact foldlM_refines (fun e : Side × String × Neighborhood =>
        onEdgeShown ⟨names, i, dbu, scale, par⟩ rnd k debug text e.1 e.2.1 e.2.2)
      (fun e : Side × String × Neighborhood => Fringe.onEdge ⟨names, i, dbu, scale, par⟩ k e.2.1 e.2.2)
      (·.filterMap recordOf) (·.map (recOp rnd)) (fun _ _ => List.filterMap_append) (fun _ _ => List.map_append)
      (fun e => onEdge_refines _ rnd k debug text _ _ _) _ [] [] rfl
  exact foldlM_refines F G (·.filterMap recordOf) (·.map (recOp rnd)) (fun _ _ => List.filterMap_append)
    (fun _ _ => List.map_append) hin _ [] [] rfl

end Verif.Engine25
