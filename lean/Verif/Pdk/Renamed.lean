import Verif.Engine25.Rename
import Verif.Pdk.Moved
import Verif.Pdk.Nearby

/-!
# Renaming of nets with the shipped technologies (C97)
-/

namespace Verif.Pdk

open Engine25 (Renaming RenamedTo MergesRenamed Picture tidy KLayout Context IsStack Regions View Side Visits)
open Fringe (KernelOK KernelBands)
open Overlap (Poly Cell)

set_option maxRecDepth 4000

/-- **C97 for the shipped technologies.** Nothing has to be assumed about the technology. -/
theorem shipped_renamed {t : Technology} (ht : Shipped t) (kl : KLayout) (hkl : Engine25.Faithful kl) (hk : KernelOK kl.kernel)
    (hkb : KernelBands kl.kernel) (σ : Renaming) (hm : MergesRenamed kl σ) (cf : String → String) {x x' : Context}
    (hren : RenamedTo σ x x') (hmim : WithoutMim t x) (mode : PexMode.Mode)
    (hmode : mode = .CC ∨ mode = .RC) (scale : Bool) (halo : ℤ) (res res' : Except String (List Summary.RNetwork))
    (c d c' d' : Netlist.Circuit) (bb : Bool) (hrun : Engine25.run kl cf t.read x mode scale halo res c bb = .ok c')
    (hrun' : Engine25.run kl cf t.read x' mode scale halo res' d bb = .ok d')
    (hno : ∀ d ∈ c.devices, d.clsName ≠ "C") (hno' : ∀ e ∈ d.devices, e.clsName ≠ "C")
    (hshort : Engine25.NoShorts t.read x halo) (hdbu : 0 < x.dbu) (hdbu' : x.dbu ≤ 10) (depth : ℤ)
    (hdepth : depth = ⌊t.parasitics.sideHalo / x.dbu⌋ + 1)
    (hvis : ∀ names R, IsStack t.read x names → Regions kl t.read x halo names R → ∀ i < names.length,
      ∃ sides, Visits R i depth sides (kl.edges R i))
    (hvis' : ∀ names R, IsStack t.read x' names → Regions kl t.read x' halo names R → ∀ i < names.length,
      ∃ sides, Visits R i depth sides (kl.edges R i))
    (ε : ℝ) (hε : 0 ≤ ε) (hrnd : ∀ r, 1 / 10000 < r → |(kl.rnd r : ℝ) - r| ≤ ε * r) :
    ∃ (cap cov cs : String → String → ℚ) (C off : String → ℚ) (names : List String) (R R' : List (List Poly))
      (sides sides' : Nat → List (Poly × Side)) (views views' : Nat → Poly × Side → List View) (N : Nat),
      ValuesAre t cap cov cs C off ∧
      Picture kl t.read x halo depth names R sides views ∧ Picture kl t.read x' halo depth names R' sides' views' ∧
      N = ∑ i ∈ Finset.range names.length, (((sides i).map fun ps => (views i ps).length).sum +
        ((sides' i).map fun ps => (views' i ps).length).sum) ∧
      ∀ a b, a ≠ b →
        |(Rcx25Netlist.parasiticCap c' a b : ℝ) - Rcx25Netlist.parasiticCap d' (σ.name a) (σ.name b)| ≤
          2 * ε * Engine25.fringeTotal R names x.dbu t.parasitics.sideHalo scale cov cs depth sides a b + N / 10000 := by
  obtain ⟨cap, cov, cs, C, off, hv⟩ := shipped_values ht
  obtain ⟨names, R, R', sides, sides', views, views', N, h1, h2, h3, h4⟩ := Engine25.renamed_netlist kl hkl hk hkb σ hm cf t.read
    hren mode hmode scale halo res res' c d c' d' bb hrun hrun' hno hno' hshort (shipped_no_vsubs ht) (shipped_nonneg ht) cap
    (hv.pairs x hmim) hdbu hdbu' depth hdepth hvis hvis' C off hv.wall cov cs hv.over hv.side hv.over0 hv.side0
    (side_values_ok ht).1 ε hε hrnd
  exact ⟨cap, cov, cs, C, off, names, R, R', sides, sides', views, views', N, hv, h1, h2, h3, h4⟩

/-! ### An example -/

theorem lookRenames (σ : Renaming) : MergesRenamed lookKL σ := by
  intro ps ps' h p
  show p ∈ tidy ps' ↔ ∃ q ∈ tidy ps, p = σ.poly q
  have hcover : ∀ n c, (∃ r ∈ ps', r.net = σ.name n ∧ c ∈ r.cells) ↔ ∃ r ∈ ps, r.net = n ∧ c ∈ r.cells := by
    intro n c
    constructor
    · rintro ⟨s', hs', h3, h4⟩
      obtain ⟨s, hs, rfl⟩ := (h _).1 hs'
      exact ⟨s, hs, σ.name.injective h3, h4⟩
    · rintro ⟨s, hs, h3, h4⟩
      exact ⟨σ.poly s, (h _).2 ⟨s, hs, rfl⟩, congrArg σ.name h3, h4⟩
  simp only [mem_tidy]
  constructor
  · rintro ⟨r', hr', h1, h2⟩
    obtain ⟨r, hr, rfl⟩ := (h _).1 hr'
    refine ⟨⟨r.net, p.cells⟩, ⟨r, hr, rfl, fun c => ?_⟩, ?_⟩
    · rw [h2]; exact hcover r.net c
    · cases p with
      | mk net cells => simp only at h1; rw [h1]; rfl
  · rintro ⟨q, ⟨r, hr, h1, h2⟩, rfl⟩
    refine ⟨σ.poly r, (h _).2 ⟨r, hr, rfl⟩, congrArg σ.name h1, fun c => ?_⟩
    show c ∈ q.cells ↔ _
    rw [h2]; exact (hcover r.net c).symm

/-- `B` becomes `C`. -/
def renameB : Renaming where
  name := Equiv.swap "B" "C"
  substrate := by decide
  none := by decide

/-- The two wires, the second one with the new name. -/
def renamedWires : List Rect := [⟨"A", 0, 0, 4, 2⟩, ⟨"C", 0, 4, 4, 6⟩]

theorem renamedWires_ok : WiresOK renamedWires where
  sorted := by decide
  inside := by decide
  apart := by decide
  nodup := by decide +kernel
  clear := by decide +kernel

theorem renamedWires_to : RenamedTo renameB (wiresCell twoWires) (wiresCell renamedWires) where
  dbu := rfl
  annotated := rfl
  internal := rfl
  extracted g := by
    simp only [wiresCell, Dict.get?_cons]
    split
    · rfl
    · rfl

/-- The hypotheses of C97 hold for the two wires: both run, and the capacitance between `A` and `B` is the one between `A` and `C`
up to rounding. -/
example : ∃ c' d', Engine25.run lookKL id Sky130A.tech.read (wiresCell twoWires) .CC true 8 (.ok []) ⟨["A", "B"], []⟩ true = .ok c' ∧
    Engine25.run lookKL id Sky130A.tech.read (wiresCell renamedWires) .CC true 8 (.ok []) ⟨["A", "C"], []⟩ true = .ok d' ∧
    ∃ (cov cs : String → String → ℚ) (names : List String) (R : List (List Poly)) (sides : Nat → List (Poly × Side)) (N : Nat),
      |(Rcx25Netlist.parasiticCap c' "A" "B" : ℝ) - Rcx25Netlist.parasiticCap d' "A" "C"| ≤
        2 * (1 / 100) * Engine25.fringeTotal R names 1 Sky130A.tech.parasitics.sideHalo true cov cs 9 sides "A" "B" + N / 10000 := by
  obtain ⟨c', h⟩ := (shipped_runs_partial (Or.inl rfl) Fringe.rowKernel_ok wiresSourced wiresMim (wiresSpaced twoWires_ok) true
    (.ok [])).1 id ⟨["A", "B"], []⟩ true
  obtain ⟨d', h'⟩ := (shipped_runs_partial (Or.inl rfl) Fringe.rowKernel_ok wiresSourced wiresMim (wiresSpaced renamedWires_ok) true
    (.ok [])).1 id ⟨["A", "C"], []⟩ true
  obtain ⟨cap, cov, cs, C, off, names, R, R', sides, sides', views, views', N, _, _, _, _, hc⟩ := shipped_renamed (Or.inl rfl) lookKL
    lookFaithful Fringe.rowKernel_ok Fringe.rowKernel_bands renameB (lookRenames _) id renamedWires_to wiresMim .CC (Or.inl rfl)
    true 8 _ _ _ _ c' d' true h h' (by simp) (by simp) (wiresShorts twoWires_ok) (by norm_num [wiresCell])
    (by norm_num [wiresCell]) 9 (by show (9 : ℤ) = ⌊(8.0 : ℚ) / 1⌋ + 1; norm_num)
    (fun names R hs hR i hi => wiresVisits twoWires_ok hs hR hi) (fun names R hs hR i hi => wiresVisits renamedWires_ok hs hR hi)
    (1 / 100) (by norm_num) (by
      intro r hr
      have h1 := Int.floor_le (r * 1000000)
      have h2 := Int.lt_floor_add_one (r * 1000000)
      have e : ((lookKL.rnd r : ℚ) : ℝ) = (⌊r * 1000000⌋ : ℝ) / 1000000 := by simp [lookKL]
      rw [e, abs_le]
      constructor <;> linarith)
  exact ⟨c', d', h, h', cov, cs, names, R, sides, N, hc "A" "B" (by decide)⟩

end Verif.Pdk
