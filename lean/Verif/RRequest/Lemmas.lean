import Verif.RRequest.Model
import Verif.Lvs.Props

/-!
# Lemmas on the R extraction request
-/

namespace Verif.RRequest

open TechInfo (Tech GDSPair Kind computedByPair canonicalByPair IsLast)
open Shapes (Polygon Pt RegionPb)
open Lvs
open Exc

/-! ### The requests as the result of a list of additions -/

/-- An addition to the request of a net. -/
inductive Op where
  | pin (p : Pin)
  | terminal (t : Terminal)
  | region (net : String) (r : LayerRegion)

def Op.net : Op → String
  | .pin p => p.net
  | .terminal t => t.net
  | .region n _ => n

def Op.add : Op → NetRequest → NetRequest
  | .pin p, q => { q with pins := q.pins ++ [p] }
  | .terminal t, q => { q with terminals := q.terminals ++ [t] }
  | .region _ r, q => { q with regions := q.regions ++ [r] }

def runOps (ops : List Op) (d : Dict String NetRequest) : Dict String NetRequest :=
  ops.foldl (fun d o => addTo d o.net o.add) d

theorem runOps_append (a b : List Op) (d : Dict String NetRequest) : runOps (a ++ b) d = runOps b (runOps a d) := by
  unfold runOps; rw [List.foldl_append]

def Op.pinOf (n : String) : Op → Option Pin
  | .pin p => if p.net = n then some p else none
  | _ => none
def Op.termOf (n : String) : Op → Option Terminal
  | .terminal t => if t.net = n then some t else none
  | _ => none
def Op.regOf (n : String) : Op → Option LayerRegion
  | .region m r => if m = n then some r else none
  | _ => none

def pinsIn (n : String) (ops : List Op) : List Pin := ops.filterMap (Op.pinOf n)
def termsIn (n : String) (ops : List Op) : List Terminal := ops.filterMap (Op.termOf n)
def regionsIn (n : String) (ops : List Op) : List LayerRegion := ops.filterMap (Op.regOf n)

theorem runOps_spec (ops : List Op) :
    (runOps ops []).keys = firsts (ops.map Op.net) ∧ (runOps ops []).keys.Nodup ∧
    ∀ n, ((runOps ops []).getD n {}).pins = pinsIn n ops ∧ ((runOps ops []).getD n {}).terminals = termsIn n ops ∧
      ((runOps ops []).getD n {}).regions = regionsIn n ops := by
  induction ops using List.reverseRecOn with
  | nil => exact ⟨rfl, by simp [runOps, Dict.keys], fun n => ⟨rfl, rfl, rfl⟩⟩
  | append_singleton ops o ih =>
    obtain ⟨h1, h2, h3⟩ := ih
    have e : runOps (ops ++ [o]) [] = addTo (runOps ops []) o.net o.add := by rw [runOps_append]; rfl
    rw [e]
    generalize runOps ops [] = d at *
    unfold addTo
    refine ⟨?_, Dict.nodup_keys_upd _ _ _ _ h2, ?_⟩
    · rw [Dict.upd, Dict.keys_set, List.map_append, List.map_cons, List.map_nil, firsts_snoc, h1]
    · intro n
      rw [Dict.getD_upd]
      obtain ⟨k1, k2, k3⟩ := h3 n
      by_cases hn : o.net = n
      · rw [if_pos hn, hn]
        cases o with
        | pin p =>
          have hp : p.net = n := hn
          simp only [Op.add, pinsIn, termsIn, regionsIn, List.filterMap_append] at *
          simp [k1, k2, k3, hp, Op.pinOf, Op.termOf, Op.regOf]
        | terminal p =>
          have hp : p.net = n := hn
          simp only [Op.add, pinsIn, termsIn, regionsIn, List.filterMap_append] at *
          simp [k1, k2, k3, hp, Op.pinOf, Op.termOf, Op.regOf]
        | region m p =>
          have hp : m = n := hn
          simp only [Op.add, pinsIn, termsIn, regionsIn, List.filterMap_append] at *
          simp [k1, k2, k3, hp, Op.pinOf, Op.termOf, Op.regOf]
      · rw [if_neg hn]
        cases o with
        | pin p =>
          have hp : ¬ p.net = n := hn
          simp only [pinsIn, termsIn, regionsIn, List.filterMap_append] at *
          simp [k1, k2, k3, hp, Op.pinOf, Op.termOf, Op.regOf]
        | terminal p =>
          have hp : ¬ p.net = n := hn
          simp only [pinsIn, termsIn, regionsIn, List.filterMap_append] at *
          simp [k1, k2, k3, hp, Op.pinOf, Op.termOf, Op.regOf]
        | region m p =>
          have hp : ¬ m = n := hn
          simp only [pinsIn, termsIn, regionsIn, List.filterMap_append] at *
          simp [k1, k2, k3, hp, Op.pinOf, Op.termOf, Op.regOf]

/-- A fold that performs additions is a list of additions. -/
theorem foldlM_ops {α : Type} (f : Dict String NetRequest → α → Except String (Dict String NetRequest))
    (l : List α) (g : α → List Op) (hf : ∀ a ∈ l, ∀ d d', f d a = .ok d' → d' = runOps (g a) d)
    (d d' : Dict String NetRequest) (h : l.foldlM f d = .ok d') : d' = runOps (l.flatMap g) d := by
  induction l generalizing d with
  | nil => rw [List.foldlM_nil, pure_ok] at h; exact h.symm
  | cons a l ih =>
    rw [List.foldlM_cons, bind_ok] at h
    obtain ⟨d1, h1, h⟩ := h
    rw [List.flatMap_cons, runOps_append, ← hf a List.mem_cons_self d d1 h1]
    exact ih (fun a ha => hf a (List.mem_cons_of_mem _ ha)) d1 h

/-- The addition for one net and one source layer, if there is one. -/
def regionOf (x : Context) (v : Env) (ef : Bool) (net : String) (pair : GDSPair) (s : ExtractedLayer) :
    Option LayerRegion :=
  ((computedByPair x.tech).get? s.pair).bind fun li =>
    if hasShapes li.kind then
      match shapesOfNet x s.pair net with
      | .ok (some r) =>
        if ef && r.isEmpty then none
        else ((canonicalByPair x.tech).get? pair).map fun c =>
          ⟨⟨v.layerOf pair, c, s.name⟩, Shapes.regionToPb r {}⟩
      | _ => none
    else none

theorem netShapes_ok (x : Context) (v : Env) (ef : Bool) (net : String) (pair : GDSPair) (s : ExtractedLayer)
    (d d' : Dict String NetRequest) (h : netShapes x v ef net pair s d = .ok d') :
    d' = runOps ((regionOf x v ef net pair s).toList.map (Op.region net)) d := by
  unfold netShapes at h
  unfold regionOf
  cases hc : (computedByPair x.tech).get? s.pair with
  | none => rw [hc] at h; cases h
  | some li =>
    rw [hc] at h
    simp only [Option.bind_some] at h ⊢
    by_cases hk : hasShapes li.kind = true
    · rw [if_pos hk, bind_ok] at h
      obtain ⟨r, hr, h⟩ := h
      rw [if_pos hk, hr]
      cases r with
      | none => simp only [Option.elim_none] at h; cases h; rfl
      | some r =>
        simp only [Option.elim_some] at h ⊢
        unfold addRegion at h
        by_cases he : (ef && r.isEmpty) = true
        · rw [if_pos he] at h ⊢; cases h; rfl
        · rw [if_neg he, bind_ok] at h
          obtain ⟨c, hc', h⟩ := h
          rw [elim_ok] at hc'
          rw [pure_ok] at h
          rw [if_neg he, hc', ← h]; rfl
    · rw [if_neg hk] at h ⊢; cases h; rfl

/-- The additions of the loop over the nets. -/
def regionOps (x : Context) (v : Env) (ef : Bool) (nets : List String) : List Op :=
  nets.flatMap fun net => x.layers.extracted.flatMap fun e => e.2.sources.flatMap fun s =>
    (regionOf x v ef net e.1 s).toList.map (Op.region net)

theorem prepareRequest_ok (x : Context) (v : Env) (cfg : Config) (ef : Bool) (ds : List DbDevice) (nets : List String)
    (q : Request) (h : prepareRequest x v cfg ef ds (some nets) = .ok q) :
    ∃ tech dd pb, prepareTech x v cfg = .ok tech ∧ devicesByName x ds = .ok dd ∧ pinsByLayer x v = .ok pb ∧
      q = ⟨tech, dd.values, pb.values.flatten, runOps (pb.values.flatten.map Op.pin ++
        (dd.values.flatMap fun d => d.terminals).map Op.terminal ++ regionOps x v ef nets) []⟩ := by
  unfold prepareRequest at h
  rw [bind_ok] at h
  obtain ⟨tech, h1, h⟩ := h
  rw [bind_ok] at h
  obtain ⟨dd, h2, h⟩ := h
  rw [bind_ok] at h
  obtain ⟨pb, h3, h⟩ := h
  refine ⟨tech, dd, pb, h1, h2, h3, ?_⟩
  simp only [Option.elim_some] at h
  rw [bind_ok] at h
  obtain ⟨ns, hns, h⟩ := h
  have hns' : ns = nets := (Except.ok.inj hns).symm
  subst hns'
  rw [bind_ok] at h
  obtain ⟨d, hd, h⟩ := h
  rw [pure_ok] at h
  rw [← h]
  congr 1
  have hd' := foldlM_ops _ ns (fun net => x.layers.extracted.flatMap fun e => e.2.sources.flatMap fun s =>
    (regionOf x v ef net e.1 s).toList.map (Op.region net)) (by
      intro net _ d d' hnet
      exact foldlM_ops _ _ _ (by
        intro e _ d d' he
        exact foldlM_ops _ _ _ (by
          intro s _ d d' hs
          exact netShapes_ok x v ef net e.1 s d d' hs) d d' he) d d' hnet) _ d hd
  rw [hd', runOps_append, runOps_append]
  congr 1
  have e1 : ∀ (ps : List Pin) (d : Dict String NetRequest),
      ps.foldl (fun d p => addTo d p.net fun q => { q with pins := q.pins ++ [p] }) d = runOps (ps.map Op.pin) d := by
    intro ps
    induction ps with
    | nil => intro d; rfl
    | cons p ps ih => intro d; rw [List.foldl_cons, ih]; rfl
  have e2 : ∀ (ts : List Terminal) (d : Dict String NetRequest),
      ts.foldl (fun d t => addTo d t.net fun q => { q with terminals := q.terminals ++ [t] }) d =
        runOps (ts.map Op.terminal) d := by
    intro ts
    induction ts with
    | nil => intro d; rfl
    | cons p ps ih => intro d; rw [List.foldl_cons, ih]; rfl
  have e3 : ∀ (devs : List Device) (d : Dict String NetRequest),
      devs.foldl (fun d dev => dev.terminals.foldl (fun d t =>
        addTo d t.net fun q => { q with terminals := q.terminals ++ [t] }) d) d =
        runOps ((devs.flatMap fun d => d.terminals).map Op.terminal) d := by
    intro devs
    induction devs with
    | nil => intro d; rfl
    | cons p ps ih =>
      intro d
      rw [List.foldl_cons, ih, List.flatMap_cons, List.map_append, runOps_append, e2]
  rw [e3, e1]

/-! ### Regions -/

/-- The regions of a net, in order. -/
def regionList (x : Context) (v : Env) (ef : Bool) (net : String) : List LayerRegion :=
  x.layers.extracted.flatMap fun e => e.2.sources.flatMap fun s => (regionOf x v ef net e.1 s).toList

theorem regionsIn_append (n : String) (a b : List Op) : regionsIn n (a ++ b) = regionsIn n a ++ regionsIn n b := by
  unfold regionsIn; rw [List.filterMap_append]

theorem regionsIn_map (n m : String) (l : List LayerRegion) :
    regionsIn n (l.map (Op.region m)) = if m = n then l else [] := by
  unfold regionsIn
  rw [List.filterMap_map]
  by_cases h : m = n
  · rw [if_pos h]
    conv_rhs => rw [← List.filterMap_some (l := l)]
    congr 1; funext r; simp [h, Op.regOf]
  · rw [if_neg h, List.filterMap_eq_nil_iff]
    intro r _; simp [h, Op.regOf]

theorem regionOps_eq (x : Context) (v : Env) (ef : Bool) (nets : List String) :
    regionOps x v ef nets = nets.flatMap fun n => (regionList x v ef n).map (Op.region n) := by
  unfold regionOps regionList
  congr 1; funext n
  rw [List.map_flatMap]
  congr 1; funext e
  rw [List.map_flatMap]

theorem regionsIn_ops (x : Context) (v : Env) (ef : Bool) (nets : List String) (n : String) (hn : nets.Nodup) :
    regionsIn n (regionOps x v ef nets) = if n ∈ nets then regionList x v ef n else [] := by
  rw [regionOps_eq]
  induction nets with
  | nil => simp [regionsIn]
  | cons m nets ih =>
    rw [List.nodup_cons] at hn
    rw [List.flatMap_cons, regionsIn_append, regionsIn_map, ih hn.2]
    by_cases h : m = n
    · subst h
      rw [if_pos rfl, if_neg hn.1, List.append_nil, if_pos List.mem_cons_self]
    · rw [if_neg h, List.nil_append]
      by_cases h' : n ∈ nets
      · rw [if_pos h', if_pos (List.mem_cons_of_mem _ h')]
      · rw [if_neg h', if_neg]
        intro h''
        rcases List.mem_cons.1 h'' with e | e
        · exact h e.symm
        · exact h' e

end Verif.RRequest
