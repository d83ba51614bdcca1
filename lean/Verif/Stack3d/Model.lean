import Verif.Common.PyDict
import Verif.Sweep.Model

/-!
# From layout and process stack to the 3D model

Model of `FasterCapInputBuilder.build` (fastercap/fastercap_input_builder.py 101–340) and the parts of `TechInfo` it uses
(tech_info.py 119–213). The result is the sequence of calls on the model builder (area `Sweep`). Regions are finite sets
of cells. The LVS database is represented by the nets of the top circuit and the regions of each net and layer. Numbers are
exact.
-/

namespace Verif.Stack3d

open Verif.Sweep (Call)

/-- `ProcessStackInfo.Contact`; protos/kpex/tech/process_stack.proto 46–66. Only the fields used here. -/
structure Contact where
  name : String
  thickness : ℚ
deriving DecidableEq

/-- `ProcessStackInfo.LayerInfo`: layer type with its parameters; protos/kpex/tech/process_stack.proto 35–129. -/
inductive Kind where
  | substrate (height thickness : ℚ)
  | nwell
  | diffusion (contactAbove : Contact)
  | fieldOxide (k : ℚ)
  | simple (k : ℚ)
  | conformal (k overMetal whereNoMetal sidewall : ℚ) (reference : String)
  | sidewall (k heightAboveMetal widthOutside : ℚ) (reference : String)
  | metal (z thickness : ℚ) (contactAbove : Option Contact)
deriving DecidableEq

/-- A layer of the process stack. -/
structure Layer where
  name : String
  kind : Kind
deriving DecidableEq

/-- The technology: process stack and dielectric filter (`is_included`). -/
structure Tech where
  layers : List Layer
  included : String → Bool

/-- A metal layer with its parameters. -/
structure Metal where
  name : String
  z : ℚ
  thickness : ℚ
  contactAbove : Option Contact
deriving DecidableEq

/-- `process_metal_layers`; tech_info.py 144–149. -/
def Tech.metals (t : Tech) : List Metal :=
  t.layers.filterMap (fun l => match l.kind with | .metal z th c => some ⟨l.name, z, th, c⟩ | _ => none)

/-- `process_diffusion_layers`; tech_info.py 126–131. -/
def Tech.diffusions (t : Tech) : List (String × Contact) :=
  t.layers.filterMap (fun l => match l.kind with | .diffusion c => some (l.name, c) | _ => none)

/-- `process_substrate_layer`, `[0]` of an empty list is an `IndexError`; tech_info.py 119–124. -/
def Tech.substrate (t : Tech) : Except String (ℚ × ℚ) :=
  match t.layers.filterMap (fun l => match l.kind with | .substrate h th => some (h, th) | _ => none) with
  | [] => .error "IndexError"
  | x :: _ => .ok x

/-- `field_oxide_layer`; tech_info.py 137–142. -/
def Tech.fieldOxide (t : Tech) : Except String (String × ℚ) :=
  match t.layers.filterMap (fun l => match l.kind with | .fieldOxide k => some (l.name, k) | _ => none) with
  | [] => .error "IndexError"
  | x :: _ => .ok x

/-- Permittivity of a dielectric layer. -/
def Kind.dielectricK : Kind → Option ℚ
  | .simple k => some k
  | .conformal k _ _ _ _ => some k
  | .sidewall k _ _ _ => some k
  | _ => none

/-- `filtered_dielectric_layers`; tech_info.py 151–161. -/
def Tech.dielectrics (t : Tech) : List Layer :=
  t.layers.filter (fun l => l.kind.dielectricK.isSome && t.included l.name)

/-- `dielectric_by_name`; tech_info.py 163–174. -/
def Tech.dielectricByName (t : Tech) : Dict String ℚ :=
  t.dielectrics.foldl (fun d l => match l.kind.dielectricK with | some k => d.set l.name k | none => d) []

/-- `reference` of a sidewall or conformal dielectric. -/
def Kind.reference? : Kind → Option String
  | .conformal _ _ _ _ r => some r
  | .sidewall _ _ _ r => some r
  | _ => none

/-- `sidewall_dielectric_layer`; tech_info.py 176–193. -/
def Tech.sidewallOf (t : Tech) (name : String) : Except String (Option Layer) :=
  match t.dielectrics.filter (fun l => l.kind.reference? = some name) with
  | [] => .ok none
  | [l] => .ok (some l)
  | _ => .error s!"found multiple sidewall dielectric layers for {name}"

/-- Height of the bottom of a layer as read through `metal_layer.z` (0, the default, for other layers). -/
def Kind.metalZ : Kind → ℚ
  | .metal z _ _ => z
  | _ => 0

/-- Loop of `simple_dielectric_above_metal`; tech_info.py 202–213. -/
def simpleAboveLoop (t : Tech) (name : String) (found : Option Layer) (diel : Option Layer) :
    List Layer → Option Layer × ℚ
  | [] => (diel, 5)
  | l :: ls =>
    if l.name = name then simpleAboveLoop t name (some l) diel ls
    else match found with
      | none => simpleAboveLoop t name none diel ls
      | some f =>
        match diel, l.kind with
        | none, .simple _ =>
          if t.included l.name = false then (none, 0) else simpleAboveLoop t name found (some l) ls
        | _, .metal z _ _ => (diel, z - f.kind.metalZ)
        | _, _ => simpleAboveLoop t name found diel ls

/-- `simple_dielectric_above_metal`; tech_info.py 195–213. -/
def Tech.simpleAbove (t : Tech) (name : String) : Option Layer × ℚ := simpleAboveLoop t name none none t.layers

/-! ### The layout -/

variable {P : Type} [DecidableEq P]

/-- What the LVS database provides: nets of the top circuit (expanded names), regions per layer and net (`none`: layer
unknown or nothing extracted), regions per layer (`none`: as before, or a region that Python takes for false), the enlarged
bounding box of the top cell and `Region.sized`; fastercap_input_builder.py 78–99, 199. -/
structure Layout (P : Type) where
  dbu : ℚ
  nets : List String
  ofNet : String → String → Option (Finset P)
  ofLayer : String → Option (Finset P)
  block : Finset P
  sized : Int → Finset P → Finset P

/-- `shapes and not shapes.is_empty()` -/
def conductorIf (r : Option (Finset P)) (net : String) (z height : ℚ) : List (Call P) :=
  match r with
  | some r => if r = ∅ then [] else [.conductor net r z height]
  | none => []

/-- Conductors of one net on one metal layer; fastercap_input_builder.py 140–166. -/
def metalCalls (ly : Layout P) (net : String) (m : Metal) : List (Call P) :=
  conductorIf (ly.ofNet m.name net) net m.z m.thickness ++
    match m.contactAbove with
    | some c => conductorIf (ly.ofNet c.name net) net (m.z + m.thickness) c.thickness
    | none => []

/-- Conductors of one net on one diffusion layer; fastercap_input_builder.py 176–197. -/
def diffusionCalls (ly : Layout P) (net : String) (d : String × Contact) : List (Call P) :=
  conductorIf (ly.ofNet d.1 net) net 0 (1 / 10) ++ conductorIf (ly.ofNet d.2.name net) net 0 d.2.thickness

/-- All conductors of one net; fastercap_input_builder.py 132–197. -/
def netCalls (t : Tech) (ly : Layout P) (net : String) : List (Call P) :=
  t.metals.flatMap (metalCalls ly net) ++ t.diffusions.flatMap (diffusionCalls ly net)

/-- `diffusion_regions`; fastercap_input_builder.py 179–181. -/
def diffusionRegions (t : Tech) (ly : Layout P) : List (Finset P) :=
  ly.nets.flatMap (fun n => t.diffusions.flatMap (fun d =>
    match ly.ofNet d.1 n with
    | some r => if r = ∅ then [] else [r]
    | none => []))

/-- `substrate_region`; fastercap_input_builder.py 206–213. -/
def substrateRegion (t : Tech) (ly : Layout P) : Finset P :=
  (diffusionRegions t ly).foldl (fun s d => s \ ly.sized ⌊1 / ly.dbu⌋ d) ly.block

/-- Variables of the sidewall loop; fastercap_input_builder.py 248–260. -/
structure Side (P : Type) where
  region : Finset P
  height : ℚ := 0
  noMetal : Option (Finset P × ℚ) := none
  calls : List (Call P) := []

/-- Body of the sidewall loop for the layer found; fastercap_input_builder.py 266–303. -/
def sideStep (ly : Layout P) (m : Metal) (s : Side P) (l : Layer) : Side P :=
  match l.kind with
  | .sidewall _ above width _ =>
    let region := ly.sized ⌊width / ly.dbu⌋ s.region
    let hDelta := if above = 0 then m.thickness else above
    let height := s.height + hDelta
    { s with region := region, height := height, calls := s.calls ++ [.dielectric l.name region m.z height] }
  | .conformal _ over noMetal side _ =>
    let region := ly.sized ⌊side / ly.dbu⌋ s.region
    let hDelta := m.thickness + over
    let height := s.height + hDelta
    let calls := s.calls ++ [.dielectric l.name region m.z height]
    if noMetal > 0 then
      { region := region, height := height, noMetal := some (ly.block \ region, noMetal)
        calls := calls ++ [.dielectric l.name (ly.block \ region) m.z noMetal] }
    else { s with region := region, height := height, calls := calls }
  | _ => s

/-- The loop `while True` over the chain of sidewall dielectrics; `none` if it does not end within `fuel` rounds;
fastercap_input_builder.py 262–305. -/
def sideLoop (t : Tech) (ly : Layout P) (m : Metal) : Nat → String → Side P → Option (Except String (Side P))
  | 0, _, _ => none
  | fuel + 1, sidewallee, s =>
    match t.sidewallOf sidewallee with
    | .error e => some (.error e)
    | .ok none => some (.ok s)
    | .ok (some l) => sideLoop t ly m fuel l.name (sideStep ly m s l)

/-- Simple dielectric above one metal layer; fastercap_input_builder.py 310–337. -/
def simpleCalls (t : Tech) (ly : Layout P) (m : Metal) (s : Option (Side P)) : Except String (List (Call P)) :=
  match t.simpleAbove m.name with
  | (none, _) => .ok []
  | (some d, h) =>
    match s with
    | none => .ok [.dielectric d.name ly.block m.z h]
    | some s =>
      if s.height < 0 then .error "AssertionError"
      else
        let above : Call P := .dielectric d.name s.region (m.z + s.height) (h - s.height)
        match s.noMetal with
        | some nm => .ok [above, .dielectric d.name (ly.block \ s.region) (m.z + nm.2) (h - nm.2)]
        | none => .ok [above, .dielectric d.name (ly.block \ s.region) m.z h]

/-- Dielectrics of one metal layer; fastercap_input_builder.py 240–337. -/
def metalDielectrics (t : Tech) (ly : Layout P) (fuel : Nat) (m : Metal) : Option (Except String (List (Call P))) :=
  match ly.ofLayer m.name with
  | none => some (simpleCalls t ly m none)
  | some r =>
    match sideLoop t ly m fuel m.name { region := r } with
    | none => none
    | some (.error e) => some (.error e)
    | some (.ok s) =>
      match simpleCalls t ly m (some s) with
      | .error e => some (.error e)
      | .ok c => some (.ok (s.calls ++ c))

/-- Loop over the metal layers; fastercap_input_builder.py 240. -/
def allDielectrics (t : Tech) (ly : Layout P) (fuel : Nat) : List Metal → Option (Except String (List (Call P)))
  | [] => some (.ok [])
  | m :: ms =>
    match metalDielectrics t ly fuel m with
    | none => none
    | some (.error e) => some (.error e)
    | some (.ok c) =>
      match allDielectrics t ly fuel ms with
      | none => none
      | some (.error e) => some (.error e)
      | some (.ok cs) => some (.ok (c ++ cs))

/-- Everything before the loop over the sidewall dielectrics; fastercap_input_builder.py 117–238. -/
def firstCalls (t : Tech) (ly : Layout P) : Except String (List (Call P)) := do
  let fox ← t.fieldOxide
  let sub ← t.substrate
  match t.metals with
  | [] => .error "IndexError"
  | gate :: _ =>
    return [.material fox.1 fox.2] ++ t.dielectricByName.map (fun d => .material d.1 d.2)
      ++ ly.nets.flatMap (netCalls t ly)
      ++ [.conductor "VSUBS" (substrateRegion t ly) (0 - sub.1 - sub.2) sub.2]
      ++ [.dielectric fox.1 ly.block 0 (gate.z - 0)]

/-- `build` up to the call of `generate`: the calls on the model builder; `none` if a loop does not end within `fuel`
rounds. The check that the top circuit exists is left out. fastercap_input_builder.py 101–340. -/
def buildCalls (t : Tech) (ly : Layout P) (fuel : Nat) : Option (Except String (List (Call P))) :=
  match firstCalls t ly with
  | .error e => some (.error e)
  | .ok c =>
    match allDielectrics t ly fuel t.metals with
    | none => none
    | some (.error e) => some (.error e)
    | some (.ok cs) => some (.ok (c ++ cs))

end Verif.Stack3d
