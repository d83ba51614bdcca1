import Verif.Fringe.Props

/-!
# What a polygon that ends at the edge does to the fringe records

The general form of the violation of C34.
-/

namespace Verif.Fringe

open TechInfo (Parasitics OverlapSpec SideOverlapSpec SidewallSpec IsLast OverlapIs SideOverlapIs)
open Overlap (Cell Poly)

theorem firsts_head {α : Type} [DecidableEq α] (a : α) (t : List α) : ∃ l, firsts (a :: t) = a :: l := by
  have : ∀ (t l : List α), ∃ l', t.foldl (fun ks n => if n ∈ ks then ks else ks ++ [n]) (a :: l) = a :: l' := by
    intro t
    induction t with
    | nil => exact fun l => ⟨l, rfl⟩
    | cons b t ih =>
      intro l
      rw [List.foldl_cons]
      split_ifs
      · exact ih l
      · exact ih (l ++ [b])
  exact this t []

/-- **C34 is false for every layout of this kind.** If the first polygon belongs to another net and ends at the edge, no fringe
capacitance at all is recorded for the edge interval and this layer, whatever polygons follow. -/
theorem fringe_all_lost (x : Ctx) (k : Kernel) (outside edgeNet : String) (iv : ℚ × ℚ) (p : Poly) (ps : List Poly)
    (hne : p.cells.Nonempty) (hflat : ∀ c ∈ p.cells, c.2 < 0)
    (hnet : countsAs (x.names.getD x.inside "") edgeNet ≠ countsAs outside p.net) (o : OverlapSpec) (s : SideOverlapSpec)
    (hsub : ∃ t ∈ x.par.substrates, t.layer = x.names.getD x.inside "")
    (hload : ∀ t ∈ x.par.sideoverlaps, ∃ u ∈ x.par.substrates, u.layer = t.inLayer)
    (ho : PairSpec x.par (x.names.getD x.inside "") outside o)
    (hs : SideOverlapIs x.par (x.names.getD x.inside "") outside s) :
    emitFringe x k outside edgeNet iv (p :: ps) ∅ = .ok [] := by
  refine (emitFringe_eq _ _ _ _ _ _ _ _).2 ⟨o, s, (fringeSpecs_ok _ _ _ _ _).2 ⟨hsub, hload, ho, hs⟩, ?_⟩
  have hf : Flat p.cells := by
    obtain ⟨c, hc, he⟩ := (top_yHigh hne).1
    have := hflat c hc
    unfold Flat; omega
  rw [unshielded_eq, groupBy_eq]
  have hv : visible k (countsAs (x.names.getD x.inside "") edgeNet) outside ∅ (p :: ps) = (countsAs outside p.net, p.cells) ::
      visible k (countsAs (x.names.getD x.inside "") edgeNet) outside ∅ ps := by
    rw [visible, List.flatMap_cons, if_neg hnet, remains, if_pos rfl]; rfl
  rw [hv, List.map_cons]
  obtain ⟨l, hl⟩ : ∃ l, firsts (countsAs outside p.net ::
      (visible k (countsAs (x.names.getD x.inside "") edgeNet) outside ∅ ps).map Prod.fst) = countsAs outside p.net :: l :=
    firsts_head _ _
  rw [hl, List.map_cons, List.flatMap_cons, List.filter_cons, if_pos (by simp), List.map_cons, List.map_cons, List.cons_append]
  exact fringeLoop_flat _ _ _ _ _ _ _ (countsAs outside p.net, p.cells) _ hne hf

end Verif.Fringe
