import Verif.Sweep.Model

/-!
# Specification: which material is where, and which surfaces belong between them

The specification only looks at the sequence of builder calls. Space is cut into slabs: slab `k` lies between the heights
`k * dbu` and `(k + 1) * dbu`. Heights are rounded to the grid as the builder does (`z2norm`).
-/

namespace Verif.Sweep

variable {P : Type} [DecidableEq P]

/-- Does the call draw net or material `mk` at point `p` of slab `k`? -/
def Covers (dbu : ℚ) (mk : Mk) (k : Int) (p : P) : Call P → Prop
  | .material _ _ => False
  | .dielectric n l z h => mk = .mat n ∧ p ∈ l ∧ z2norm dbu z ≤ k ∧ k < z2norm dbu (z + h)
  | .conductor n l z h => mk = .net n ∧ p ∈ l ∧ z2norm dbu z ≤ k ∧ k < z2norm dbu (z + h)

/-- Some call draws `mk` at point `p` of slab `k`. -/
def Drawn (dbu : ℚ) (calls : List (Call P)) (mk : Mk) (k : Int) (p : P) : Prop :=
  ∃ c ∈ calls, Covers dbu mk k p c

/-- Names of the conductors in the order of the calls. -/
def netNames (calls : List (Call P)) : List String :=
  calls.filterMap (fun | .conductor n _ _ _ => some n | _ => none)

/-- Names of the declared materials in the order of the calls. -/
def matNames (calls : List (Call P)) : List String :=
  calls.filterMap (fun | .material n _ => some n | _ => none)

/-- Priority: nets before materials, earlier first calls before later ones. -/
def Before (calls : List (Call P)) : Mk → Mk → Prop
  | .net a, .net b => (netNames calls).idxOf a < (netNames calls).idxOf b
  | .net _, .mat _ => True
  | .mat _, .net _ => False
  | .mat a, .mat b => (matNames calls).idxOf a < (matNames calls).idxOf b

/-- The net or material that fills point `p` of slab `k` (`none`: void): the drawn one with the highest priority. -/
def Occupant (dbu : ℚ) (calls : List (Call P)) (k : Int) (p : P) : Option Mk → Prop
  | none => ∀ mk, ¬ Drawn dbu calls mk k p
  | some mk => Drawn dbu calls mk k p ∧ ∀ mk', Drawn dbu calls mk' k p → mk' ≠ mk → Before calls mk mk'

/-- Material name of an occupant, `none` for nets and void. -/
def matOf : Option Mk → Option String
  | some (.mat m) => some m
  | _ => none

/-- Is the occupant a net? -/
def isNet : Option Mk → Bool
  | some (.net _) => true
  | _ => false

/-- The surface that belongs between two different occupants, at most one of them a net. -/
def faceOf (below above : Option Mk) : Face :=
  match above, below with
  | some (.net n), _ => .bottom n (matOf below)
  | _, some (.net n) => .top n (matOf above)
  | _, _ => .diel (matOf below) (matOf above)

/-- The walls that belong on an edge with the given occupants inside and outside; a wall between two dielectrics is
booked on the one declared earlier, a wall between a conductor and a dielectric on the conductor. -/
def wallOf (mats : List String) (inside outside : Option Mk) : List WallKey :=
  if inside = outside then []
  else match inside with
    | none => []
    | some (.net n) => [.cond n (matOf outside)]
    | some (.mat m) =>
      match outside with
      | none => [.diel none (some m)]
      | some (.net _) => []
      | some (.mat m') => if mats.idxOf m < mats.idxOf m' then [.diel (some m') (some m)] else []

/-- Observation: horizontal surfaces of the model at a point, between slab `k - 1` and slab `k`. -/
def hfacesAt (g : Gen P) (k : Int) (p : P) : List Face :=
  (g.horiz.filter (fun f => decide (f.z = k * g.dbu ∧ p ∈ f.region))).map HFace.key

/-- Observation: walls of the model on an edge in slab `k`. -/
def vwallsAt (g : Gen P) (k : Int) (e : P × P) : List WallKey :=
  (g.walls.filter (fun w => decide (w.zlo ≤ k ∧ k < w.zhi ∧ e ∈ w.edges))).map Wall.key

/-- Different nets, and different dielectrics, are not drawn over each other at this point and slab. -/
def Exclusive (dbu : ℚ) (calls : List (Call P)) (k : Int) (p : P) : Prop :=
  (∀ n n', Drawn dbu calls (.net n) k p → Drawn dbu calls (.net n') k p → n = n') ∧
  (∀ m m', Drawn dbu calls (.mat m) k p → Drawn dbu calls (.mat m') k p → m = m')

end Verif.Sweep
