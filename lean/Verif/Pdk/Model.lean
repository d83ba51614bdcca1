import Verif.TechInfo.Model
import Verif.Stack3d.Model

/-!
# The technology definitions that are shipped

Model of `cxx/gen_tech_pb/protobuf.cpp`: the functions that fill the technology message.  The message is written as JSON and
read back by the Python code (protocol buffer library, not modelled).  Adding an entry to a repeated field is represented by
the entry; the lists of `Sky130A` and `Sg13g2` are in the order of the calls.  Numbers are the decimal numbers of the source,
computed with exactly (not rounded to `float` or `double`).  Descriptions are left out.
-/

namespace Verif.Pdk

/-- `LayerInfo.Purpose`; protos/kpex/tech/tech.proto. The cases used by the shipped technologies. -/
inductive Purpose where
  | dnwell | nwell | pwell | diff | ntapOrPtap | ntap | ptap | pImplant | nImplant | contact | metal | via | mimCap
deriving DecidableEq, Repr

/-- `ProcessStackInfo.Contact`; protos/kpex/tech/process_stack.proto 46–66. -/
structure Contact where
  name : String := ""
  layerBelow : String := ""
  metalAbove : String := ""
  thickness : ℚ := 0
  width : ℚ := 0
  spacing : ℚ := 0
  border : ℚ := 0
deriving DecidableEq

/-- `ProcessStackInfo.LayerInfo`: type and parameters; protos/kpex/tech/process_stack.proto 35–129. -/
inductive Kind where
  | substrate (height thickness : ℚ) (reference : String)
  | nwell (z : ℚ) (reference : String) (contactAbove : Option Contact)
  | diffusion (z : ℚ) (reference : String) (contactAbove : Option Contact)
  | fieldOxide (k : ℚ)
  | metal (z thickness : ℚ) (contactAbove : Option Contact)
  | sidewall (k heightAboveMetal widthOutside : ℚ) (reference : String)
  | simple (k : ℚ) (reference : String)
  | conformal (k overMetal whereNoMetal sidewall : ℚ) (reference : String)
deriving DecidableEq

/-- A layer of the process stack. -/
structure StackLayer where
  name : String
  kind : Kind
deriving DecidableEq

/-- `LayerInfo`; protos/kpex/tech/tech.proto. -/
structure LayerInfo where
  purpose : Purpose
  name : String
  drw : Nat × Nat
  pin : Option (Nat × Nat)
  label : Option (Nat × Nat)
deriving DecidableEq

/-- `ComputedLayerInfo`; protos/kpex/tech/tech.proto. -/
structure ComputedLayer where
  kind : TechInfo.Kind
  info : LayerInfo
  original : String
deriving DecidableEq

/-- `Technology`; protos/kpex/tech/tech.proto. -/
structure Technology where
  name : String
  layers : List LayerInfo
  computed : List ComputedLayer
  stack : List StackLayer
  parasitics : TechInfo.Parasitics

/-- The optional GDS pair of `addLayer`: not set if one of the numbers is negative; protobuf.cpp 140–150. -/
def optPair (layer datatype : Int) : Option (Nat × Nat) :=
  if 0 ≤ layer ∧ 0 ≤ datatype then some (layer.toNat, datatype.toNat) else none

/-- `addLayer`; protobuf.cpp 118–151. -/
def addLayer (purpose : Purpose) (name : String) (drwLayer drwDatatype : Nat)
    (pinLayer pinDatatype labelLayer labelDatatype : Int) : LayerInfo :=
  { purpose := purpose, name := name, drw := (drwLayer, drwDatatype), pin := optPair pinLayer pinDatatype
    label := optPair labelLayer labelDatatype }

/-- `addComputedLayer`; protobuf.cpp 153–172. -/
def addComputedLayer (purpose : Purpose) (kind : TechInfo.Kind) (name : String) (layer datatype : Nat)
    (original : String) : ComputedLayer :=
  { kind := kind, original := original
    info := { purpose := purpose, name := name, drw := (layer, datatype), pin := none, label := none } }

/-- `addSubstrateLayer`; protobuf.cpp 176–189. -/
def addSubstrateLayer (name : String) (height thickness : ℚ) (reference : String) : StackLayer :=
  ⟨name, .substrate height thickness reference⟩

/-- `addNWellLayer`, with the contact set through the returned pointer; protobuf.cpp 191–204. -/
def addNWellLayer (name : String) (z : ℚ) (reference : String) (contactAbove : Option Contact := none) : StackLayer :=
  ⟨name, .nwell z reference contactAbove⟩

/-- `setContact`; protobuf.cpp 206–222. -/
def setContact (name layerBelow layerAbove : String) (thickness width spacing border : ℚ) : Contact :=
  { name := name, layerBelow := layerBelow, metalAbove := layerAbove, thickness := thickness, width := width
    spacing := spacing, border := border }

/-- `addDiffusionLayer`, with the contact set through the returned pointer; protobuf.cpp 224–237. -/
def addDiffusionLayer (name : String) (z : ℚ) (reference : String) (contactAbove : Option Contact := none) : StackLayer :=
  ⟨name, .diffusion z reference contactAbove⟩

/-- `addFieldOxideLayer`; protobuf.cpp 239–248. -/
def addFieldOxideLayer (name : String) (k : ℚ) : StackLayer := ⟨name, .fieldOxide k⟩

/-- `addMetalLayer`, with the contact set through the returned pointer; protobuf.cpp 250–263. -/
def addMetalLayer (name : String) (z thickness : ℚ) (contactAbove : Option Contact := none) : StackLayer :=
  ⟨name, .metal z thickness contactAbove⟩

/-- `addSidewallDielectric`; protobuf.cpp 265–280. -/
def addSidewallDielectric (name : String) (k heightAboveMetal widthOutside : ℚ) (reference : String) : StackLayer :=
  ⟨name, .sidewall k heightAboveMetal widthOutside reference⟩

/-- `addSimpleDielectric`; protobuf.cpp 282–293. -/
def addSimpleDielectric (name : String) (k : ℚ) (reference : String) : StackLayer := ⟨name, .simple k reference⟩

/-- `addConformalDielectric`; protobuf.cpp 295–312. -/
def addConformalDielectric (name : String) (k overMetal whereNoMetal sidewall : ℚ) (reference : String) : StackLayer :=
  ⟨name, .conformal k overMetal whereNoMetal sidewall reference⟩

/-- `addLayerResistance`, without the corner adjustment that no technology sets; protobuf.cpp 317–337. -/
def addLayerResistance (layer : String) (resistance : ℚ) : TechInfo.LayerResistance := ⟨layer, resistance⟩

/-- `addContactResistance` (the layer above is not read by the Python code); protobuf.cpp 339–350. -/
def addContactResistance (contact device _above : String) (resistance : ℚ) : TechInfo.ContactResistance :=
  ⟨contact, device, resistance⟩

/-- `addViaResistance`; protobuf.cpp 352–359. -/
def addViaResistance (via : String) (resistance : ℚ) : TechInfo.ViaResistance := ⟨via, resistance⟩

/-- `addSubstrateCap`; protobuf.cpp 361–370. -/
def addSubstrateCap (layer : String) (area perimeter : ℚ) : TechInfo.SubstrateCap := ⟨layer, area, perimeter⟩

/-- `addOverlapCap`; protobuf.cpp 372–381. -/
def addOverlapCap (top bottom : String) (cap : ℚ) : TechInfo.OverlapSpec := ⟨top, bottom, cap⟩

/-- `addSidewallCap`; protobuf.cpp 383–392. -/
def addSidewallCap (layer : String) (cap offset : ℚ) : TechInfo.SidewallSpec := ⟨layer, cap, offset⟩

/-- `addSidewallOverlapCap`; protobuf.cpp 394–403. -/
def addSidewallOverlapCap (inLayer outLayer : String) (cap : ℚ) : TechInfo.SideOverlapSpec := ⟨inLayer, outLayer, cap⟩

/-! ### The message as the Python code reads it -/

/-- The purposes the Python code distinguishes. -/
def Purpose.read : Purpose → TechInfo.Purpose
  | .nwell => .nwell
  | .pImplant => .pImplant
  | .nImplant => .nImplant
  | .contact => .contact
  | .metal => .metal
  | .via => .via
  | .dnwell | .pwell | .diff | .ntapOrPtap | .ntap | .ptap | .mimCap => .other

/-- A layer; an unset pair reads as `0/0`. -/
def LayerInfo.read (l : LayerInfo) : TechInfo.LayerInfo :=
  { purpose := l.purpose.read, name := l.name, drw := l.drw, pin := l.pin.getD (0, 0), label := l.label.getD (0, 0) }

/-- A computed layer. -/
def ComputedLayer.read (l : ComputedLayer) : TechInfo.ComputedLayer :=
  { kind := l.kind, info := l.info.read, original := l.original }

/-- A contact as `TechInfo` reads it. -/
def Contact.read (c : Contact) : TechInfo.Contact := ⟨c.name, c.layerBelow, c.metalAbove, c.width⟩

/-- A layer of the stack as `TechInfo` reads it; an unset contact of an n-well or diffusion reads as the empty message. -/
def StackLayer.read (l : StackLayer) : TechInfo.StackLayer :=
  ⟨l.name, match l.kind with
    | .nwell _ _ c => .nwell (c.getD {}).read
    | .diffusion _ _ c => .diffusion (c.getD {}).read
    | .metal _ _ c => .metal (c.map Contact.read)
    | .substrate .. | .fieldOxide _ | .sidewall .. | .simple .. | .conformal .. => .other⟩

/-- The technology as the 2.5D engine reads it. -/
def Technology.read (t : Technology) : TechInfo.Tech :=
  { layers := t.layers.map LayerInfo.read, computed := t.computed.map ComputedLayer.read
    stack := t.stack.map StackLayer.read, parasitics := t.parasitics }

/-- A contact as the builder of the 3D model reads it. -/
def Contact.via (c : Contact) : Stack3d.Contact := ⟨c.name, c.thickness⟩

/-- A layer of the stack as the builder of the 3D model reads it. -/
def StackLayer.stack (l : StackLayer) : Stack3d.Layer :=
  ⟨l.name, match l.kind with
    | .substrate h th _ => .substrate h th
    | .nwell .. => .nwell
    | .diffusion _ _ c => .diffusion (c.getD {}).via
    | .fieldOxide k => .fieldOxide k
    | .metal z th c => .metal z th (c.map Contact.via)
    | .sidewall k a w r => .sidewall k a w r
    | .simple k _ => .simple k
    | .conformal k o n s r => .conformal k o n s r⟩

/-- The technology as the builder of the 3D model reads it, with a filter of the dielectrics. -/
def Technology.tech3d (t : Technology) (included : String → Bool) : Stack3d.Tech :=
  { layers := t.stack.map StackLayer.stack, included := included }

end Verif.Pdk
