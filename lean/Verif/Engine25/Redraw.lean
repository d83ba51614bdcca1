import Verif.Engine25.Look

/-!
# How the shapes of a net are drawn (C99)
-/

namespace Verif.Engine25

open Summary PexMode TechInfo Fringe
open Overlap (Poly Cell)

/-! ### Specification -/

/-- The cell belongs to the net in one of the polygons. -/
def Covered (ps : List Poly) (net : String) (c : Cell) : Prop := ∃ p ∈ ps, p.net = net ∧ c ∈ p.cells

/-- `x'` has the same layers as `x`, and on every layer every net covers the same area; the area may be cut into polygons in
another way, in another order and with other overlaps between polygons of the net, and distributed differently over the source
layers. -/
structure Redrawn (x x' : Context) : Prop where
  cellName : x'.cellName = x.cellName
  dbu : x'.dbu = x.dbu
  annotated : x'.annotated = x.annotated
  internal : x'.internal = x.internal
  absent : ∀ g, x'.extracted.get? g = none ↔ x.extracted.get? g = none
  sources : ∀ g rs rs', x.extracted.get? g = some rs → x'.extracted.get? g = some rs' → (rs' = [] ↔ rs = [])
  area : ∀ g rs rs', x.extracted.get? g = some rs → x'.extracted.get? g = some rs' →
    ∀ net c, (∃ r ∈ rs', Covered r net c) ↔ ∃ r ∈ rs, Covered r net c

/-- The merged polygons of a region depend only on the area that the nets cover. -/
def MergesArea (kl : KLayout) : Prop := ∀ ps ps', (∀ net c, Covered ps' net c ↔ Covered ps net c) → kl.merged ps' = kl.merged ps

/-! ### Proofs -/

/-- Two layers with the same area. -/
def SameArea (ps ps' : List Poly) : Prop := ∀ net c, Covered ps' net c ↔ Covered ps net c

/-- Two tables of layers with the same names in the same order and the same areas. -/
def SameLayers (d d' : Dict String (List Poly)) : Prop :=
  List.Forall₂ (fun kv kv' => kv'.1 = kv.1 ∧ SameArea kv.2 kv'.2) d d'

theorem SameArea.append {a a' b b' : List Poly} (h : SameArea a a') (h' : SameArea b b') : SameArea (a ++ b) (a' ++ b') := by
  intro net c
  have h1 := h net c
  have h2 := h' net c
  unfold Covered at h1 h2 ⊢
  simp only [List.mem_append, or_and_right, exists_or, h1, h2]

theorem SameLayers.get {d d' : Dict String (List Poly)} (h : SameLayers d d') (k : String) :
    SameArea (d.getD k []) (d'.getD k []) := by
  induction h with
  | nil => exact fun _ _ => Iff.rfl
  | @cons kv kv' d d' h1 h2 ih =>
    obtain ⟨k1, v⟩ := kv
    obtain ⟨k1', v'⟩ := kv'
    obtain ⟨he, ha⟩ := h1
    simp only at he ha
    subst he
    unfold Dict.getD at ih ⊢
    rw [Dict.get?_cons, Dict.get?_cons]
    split
    · exact ha
    · exact ih

theorem SameLayers.set {d d' : Dict String (List Poly)} (h : SameLayers d d') (k : String) {v v' : List Poly} (hv : SameArea v v') :
    SameLayers (d.set k v) (d'.set k v') := by
  induction h with
  | nil => exact List.Forall₂.cons ⟨rfl, hv⟩ List.Forall₂.nil
  | @cons kv kv' d d' h1 h2 ih =>
    obtain ⟨k1, w⟩ := kv
    obtain ⟨k1', w'⟩ := kv'
    obtain ⟨he, ha⟩ := h1
    simp only at he ha
    subst he
    unfold Dict.set
    split
    · exact List.Forall₂.cons ⟨rfl, hv⟩ h2
    · exact List.Forall₂.cons ⟨rfl, ha⟩ ih

variable {x x' : Context}

theorem Redrawn.shapes (h : Redrawn x x') (t : Tech) (name : String) :
    (∃ e, shapesOfLayer t x name = .error e ∧ shapesOfLayer t x' name = .error e) ∨
    (shapesOfLayer t x name = .ok none ∧ shapesOfLayer t x' name = .ok none) ∨
    ∃ ps ps', shapesOfLayer t x name = .ok (some ps) ∧ shapesOfLayer t x' name = .ok (some ps') ∧ SameArea ps ps' := by
  unfold shapesOfLayer
  cases hg : TechInfo.gdsPair t name with
  | none => exact Or.inr (Or.inl ⟨rfl, rfl⟩)
  | some g =>
    simp only
    unfold shapesOfPair
    cases h1 : x.extracted.get? g with
    | none => rw [(h.absent g).2 h1]; exact Or.inr (Or.inl ⟨rfl, rfl⟩)
    | some rs =>
      cases h2 : x'.extracted.get? g with
      | none => rw [(h.absent g).1 h2] at h1; cases h1
      | some rs' =>
        have h3 := h.sources g rs rs' h1 h2
        have h4 := h.area g rs rs' h1 h2
        match rs, rs', h3, h4 with
        | [], [], _, _ => exact Or.inl ⟨_, rfl, rfl⟩
        | [], _ :: _, h3, _ => exact absurd (h3.2 rfl) (by simp)
        | _ :: _, [], h3, _ => exact absurd (h3.1 rfl) (by simp)
        | r :: rs, r' :: rs', _, h4 =>
          refine Or.inr (Or.inr ⟨_, _, rfl, rfl, fun net c => ?_⟩)
          have := h4 net c
          unfold Covered at this ⊢
          simp only [List.mem_flatten]
          constructor
          · rintro ⟨p, ⟨q, hq, hp⟩, hc⟩
            obtain ⟨q', hq', p', hp', hc'⟩ := this.1 ⟨q, hq, p, hp, hc⟩
            exact ⟨p', ⟨q', hq', hp'⟩, hc'⟩
          · rintro ⟨p, ⟨q, hq, hp⟩, hc⟩
            obtain ⟨q', hq', p', hp', hc'⟩ := this.2 ⟨q, hq, p, hp, hc⟩
            exact ⟨p', ⟨q', hq', hp'⟩, hc'⟩

/-- Both fail in the same way, or both give tables with the same areas. -/
def SameResult (r r' : Except String (Dict String (List Poly))) : Prop :=
  (∃ e, r = .error e ∧ r' = .error e) ∨ ∃ d d', r = .ok d ∧ r' = .ok d' ∧ SameLayers d d'

theorem Redrawn.addMetal (h : Redrawn x x') (t : Tech) {d d' : Dict String (List Poly)} (hd : SameLayers d d') (l : StackLayer) :
    SameResult (addMetal t x d l) (addMetal t x' d' l) := by
  unfold Engine25.addMetal
  cases hcan : ((TechInfo.gdsPair t l.name).bind fun g => (TechInfo.canonicalByPair t).get? g) with
  | none => exact Or.inl ⟨_, rfl, rfl⟩
  | some n =>
    simp only [Option.elim_some, bind, Except.bind]
    rcases h.shapes t l.name with ⟨err, h1, h2⟩ | ⟨h1, h2⟩ | ⟨ps, ps', h1, h2, ha⟩ <;> rw [h1, h2]
    · exact Or.inl ⟨_, rfl, rfl⟩
    · simp only [Option.elim_none]
      split
      · rename_i c hk
        rcases h.shapes t c.name with ⟨err, h1, h2⟩ | ⟨h1, h2⟩ | ⟨ps, ps', h1, h2, _⟩ <;> rw [h1, h2]
        · exact Or.inl ⟨_, rfl, rfl⟩
        · exact Or.inr ⟨_, _, rfl, rfl, hd⟩
        · exact Or.inr ⟨_, _, rfl, rfl, hd⟩
      · exact Or.inr ⟨_, _, rfl, rfl, hd⟩
    · simp only [Option.elim_some]
      have he : SameLayers (d.upd n [] fun x => x ++ ps) (d'.upd n [] fun x => x ++ ps') := hd.set n ((hd.get n).append ha)
      split
      · rename_i c hk
        rcases h.shapes t c.name with ⟨err, h1, h2⟩ | ⟨h1, h2⟩ | ⟨ps, ps', h1, h2, _⟩ <;> rw [h1, h2]
        · exact Or.inl ⟨_, rfl, rfl⟩
        · exact Or.inr ⟨_, _, rfl, rfl, he⟩
        · exact Or.inr ⟨_, _, rfl, rfl, he⟩
      · exact Or.inr ⟨_, _, rfl, rfl, he⟩

theorem Redrawn.layers (h : Redrawn x x') (t : Tech) (halo : ℤ) : SameResult (layerRegions t x halo) (layerRegions t x' halo) := by
  unfold layerRegions
  have htop : topBox x' = topBox x := by unfold topBox; rw [h.annotated, h.internal]
  rw [htop]
  have key : ∀ (ls : List StackLayer) (d d' : Dict String (List Poly)), SameLayers d d' →
      SameResult (ls.foldlM (Engine25.addMetal t x) d) (ls.foldlM (Engine25.addMetal t x') d') := by
    intro ls
    induction ls with
    | nil => exact fun d d' hd => Or.inr ⟨d, d', rfl, rfl, hd⟩
    | cons l ls ih =>
      intro d d' hd
      rw [List.foldlM_cons, List.foldlM_cons]
      rcases h.addMetal t hd l with ⟨e, h1, h2⟩ | ⟨e, e', h1, h2, he⟩ <;> rw [h1, h2]
      · exact Or.inl ⟨e, rfl, rfl⟩
      · exact ih e e' he
  exact key _ _ _ (List.Forall₂.cons ⟨rfl, fun _ _ => Iff.rfl⟩ List.Forall₂.nil)

theorem SameLayers.keys {d d' : Dict String (List Poly)} (h : SameLayers d d') : d'.keys = d.keys := by
  induction h with
  | nil => rfl
  | cons h1 _ ih => simp only [Dict.keys, List.map_cons] at ih ⊢; rw [h1.1, ih]

theorem SameLayers.merged {kl : KLayout} (hm : MergesArea kl) {d d' : Dict String (List Poly)} (h : SameLayers d d') :
    d'.values.map kl.merged = d.values.map kl.merged := by
  induction h with
  | nil => rfl
  | cons h1 _ ih => simp only [Dict.values, List.map_cons] at ih ⊢; rw [hm _ _ h1.2, ih]

/-! ### Theorem -/

/-- **C99.** The run of the engine depends only on the area that each net covers on each layer: however this area is drawn, the
result is exactly the same, be it a netlist or an error. -/
theorem redrawn_run (kl : KLayout) (hm : MergesArea kl) (cf : String → String) (t : Tech) {x x' : Context} (h : Redrawn x x')
    (mode : Mode) (scale : Bool) (halo : ℤ) (res : Except String (List RNetwork)) (c : Netlist.Circuit) (bb : Bool) :
    run kl cf t x' mode scale halo res c bb = run kl cf t x mode scale halo res c bb := by
  have key : extract kl t x' mode scale halo res = extract kl t x mode scale halo res := by
    unfold extract
    rw [h.cellName, h.dbu]
    rcases h.layers t halo with ⟨e, h1, h2⟩ | ⟨d, d', h1, h2, hd⟩ <;> rw [h1, h2]
    simp only [bind, Except.bind]
    rw [hd.keys, hd.merged hm]
  unfold run
  rw [key]

end Verif.Engine25
