import Verif.Engine25.Props
import Verif.Fringe.Total
import Verif.Pdk.Stack

/-!
# The capacitance tables of the shipped technologies

The theorems about the 2.5D extraction have hypotheses about the technology.  Here they are discharged for sky130A and
ihp_sg13g2, for every layout without plates of MIM capacitors; with such plates the extraction fails.
-/

namespace Verif.Pdk

open TechInfo (Parasitics OverlapIs SideOverlapIs IsLast SidewallSpec)
open Engine25 (KLayout Context CanonicalIs Gives IsStack IsMetal Sourced)
open Fringe (Bottom CanCouple CanFace Loads NoZero KernelOK Reported)
open Overlap (Poly)

/-- The names under which the plates of MIM capacitors are extracted. -/
def IsMim (n : String) : Prop := n = "capm" ∨ n = "capm2" ∨ n = "<TODO>"

instance : DecidablePred IsMim := fun n => by unfold IsMim; infer_instance

/-- No plate of a MIM capacitor has been extracted. -/
def WithoutMim (t : Technology) (x : Context) : Prop := ∀ l ∈ t.read.stack, ∀ n rs, Gives t.read x l n rs → ¬ IsMim n

/-- The distance up to which ihp_sg13g2 has no meaningful sidewall capacitances, in µm. -/
def TooClose : ℚ := 0.057

/-! ### Conditions -/

set_option maxRecDepth 4000

/-- The names of the drawn metals. -/
def drawn (t : Technology) : List String := (t.stack.filterMap fun l => match l.kind with
  | .metal .. => canonical t.read l.name
  | _ => none).filter fun n => decide (¬ IsMim n)

theorem metals_ok {t : Technology} (ht : Shipped t) : ∀ l ∈ t.read.stack, match l.kind with
    | .metal _ => ∃ n, canonical t.read l.name = some n ∧ (n ∈ drawn t ∨ IsMim n) ∧ n ≠ "VSUBS"
    | _ => True := by
  have : ∀ l ∈ t.read.stack, (match l.kind with
    | .metal _ => match canonical t.read l.name with
      | some n => decide ((n ∈ drawn t ∨ IsMim n) ∧ n ≠ "VSUBS")
      | none => false
    | _ => true) = true := by
    rcases ht with rfl | rfl <;> decide +kernel
  intro l hl
  have h := this l hl
  cases hk : l.kind with
  | metal c =>
    rw [hk] at h
    simp only at h ⊢
    cases hc : canonical t.read l.name with
    | none => rw [hc] at h; cases h
    | some n =>
      rw [hc] at h
      exact ⟨n, rfl, of_decide_eq_true h⟩
  | _ => trivial

theorem couple_ok {t : Technology} (ht : Shipped t) : ∀ a ∈ drawn t, ∀ b ∈ "VSUBS" :: drawn t, a ≠ b →
    ((Fringe.fringeSpecs t.parasitics a b).toOption).isSome = true := by
  rcases ht with rfl | rfl <;> decide +kernel

theorem side_ok {t : Technology} (ht : Shipped t) : ∀ a ∈ drawn t,
    (match (TechInfo.sidewallTable t.parasitics).get? a with
      | some s => decide (0 < s.cap ∧ -TooClose ≤ s.offset)
      | none => false) = true := by
  rcases ht with rfl | rfl <;> decide +kernel

theorem values_ok {t : Technology} (ht : Shipped t) : t.parasitics.sideHalo ≠ 0 ∧ (∀ o ∈ t.parasitics.overlaps, 0 < o.cap) ∧
    (∀ s ∈ t.parasitics.substrates, 0 < s.area) ∧ ∀ s ∈ t.parasitics.sidewalls, 0 < s.cap := by
  rcases ht with rfl | rfl <;> decide +kernel

theorem offset_ok {t : Technology} (ht : Shipped t) : ∀ s ∈ t.parasitics.sidewalls, -0.057 ≤ s.offset := by
  rcases ht with rfl | rfl <;> decide +kernel

theorem loads_ok {t : Technology} (ht : Shipped t) : ∀ s ∈ t.parasitics.sideoverlaps,
    ∃ u ∈ t.parasitics.substrates, u.layer = s.inLayer := by
  rcases ht with rfl | rfl <;> decide +kernel

/-- The overlap capacitance of a layer `b` above a layer `a` is given, if both are drawn metals. -/
def overlapGiven (t : Technology) (a b : TechInfo.StackLayer) : Bool := match a.kind, b.kind with
  | .metal _, .metal _ => match canonical t.read a.name, canonical t.read b.name with
    | some n, some m => decide (n ∈ drawn t → m ∈ drawn t → n ≠ m → (Overlap.specOf t.parasitics m n).isSome = true)
    | _, _ => true
  | _, _ => true

theorem overlap_ok {t : Technology} (ht : Shipped t) : t.read.stack.Pairwise (fun a b => overlapGiven t a b = true) := by
  rcases ht with rfl | rfl <;> decide +kernel

theorem substrate_ok {t : Technology} (ht : Shipped t) : ∀ a ∈ drawn t,
    (Overlap.specOf t.parasitics a "VSUBS").isSome = true := by
  rcases ht with rfl | rfl <;> decide +kernel

theorem mim_ok {t : Technology} (ht : Shipped t) : ∀ n, IsMim n → ∀ s ∈ t.parasitics.substrates, s.layer ≠ n := by
  rintro n (rfl | rfl | rfl) <;> rcases ht with rfl | rfl <;> decide +kernel

/-! ### Consequences -/

theorem metal_name {t : Technology} (ht : Shipped t) {l : TechInfo.StackLayer} (hl : l ∈ t.read.stack) (hm : IsMetal l) :
    ∃ n, CanonicalIs t.read l.name n ∧ (n ∈ drawn t ∨ IsMim n) ∧ n ≠ "VSUBS" := by
  obtain ⟨c, hc⟩ := hm
  have := metals_ok ht l hl
  rw [hc] at this
  obtain ⟨n, h1, h2⟩ := this
  exact ⟨n, (Engine25.canonical_iff _ _ _).1 h1, h2⟩

theorem gives_drawn {t : Technology} (ht : Shipped t) {x : Context} {l : TechInfo.StackLayer} (hl : l ∈ t.read.stack)
    {n : String} {rs} (h : Gives t.read x l n rs) : (n ∈ drawn t ∨ IsMim n) ∧ n ≠ "VSUBS" := by
  obtain ⟨m, h1, h2⟩ := metal_name ht hl h.1
  rwa [h1.unique h.2.1] at h2

theorem can_couple {t : Technology} (ht : Shipped t) {a b : String} (ha : a ∈ drawn t) (hb : b = "VSUBS" ∨ b ∈ drawn t)
    (hab : a ≠ b) : CanCouple t.parasitics a b := by
  have := couple_ok ht a ha b (List.mem_cons.2 hb) hab
  cases h : Fringe.fringeSpecs t.parasitics a b with
  | error e => rw [h] at this; cases this
  | ok os =>
    obtain ⟨h1, _, h3, h4⟩ := (Fringe.fringeSpecs_ok _ _ _ os.1 os.2).1 h
    exact ⟨h1, ⟨_, h3⟩, _, h4⟩

theorem can_face {t : Technology} (ht : Shipped t) {a : String} (ha : a ∈ drawn t) {dbu : ℚ} {p : Poly}
    (hp : p.cells.Nonempty) (hd : ∀ y, Bottom p.cells y → TooClose < y * dbu) : CanFace t.parasitics dbu a p := by
  have := side_ok ht a ha
  cases h : (TechInfo.sidewallTable t.parasitics).get? a with
  | none => rw [h] at this; cases this
  | some s =>
    rw [h] at this
    simp only [decide_eq_true_eq] at this
    have hb := Fringe.bottom_yLow hp
    refine ⟨s, _, (Fringe.sidewallTable_get _ _ _).1 h, hb, ?_⟩
    have := hd _ hb
    intro h0
    linarith

theorem no_zero {t : Technology} (ht : Shipped t) : NoZero t.parasitics := by
  obtain ⟨h1, h2, h3, _⟩ := values_ok ht
  exact ⟨h1, fun o ho => (h2 o ho).ne', fun s hs => (h3 s hs).ne'⟩

theorem mim_cannot {t : Technology} (ht : Shipped t) {a b : String} (ha : IsMim a) : ¬ CanCouple t.parasitics a b := by
  rintro ⟨⟨s, hs, h⟩, _⟩
  exact mim_ok ht a ha s hs h

theorem stack_names {t : Technology} (ht : Shipped t) {x : Context} (hmim : WithoutMim t x) {names : List String}
    (hs : IsStack t.read x names) {i : Nat} (hi : i < names.length) (h0 : i ≠ 0) : names.getD i "" ∈ drawn t := by
  have hmem : names.getD i "" ∈ names := by
    rw [List.getD_eq_getElem _ _ hi]; exact List.getElem_mem hi
  rcases (hs.mem _).1 hmem with h | ⟨l, hl, rs, hg⟩
  · exfalso
    have h2 := hs.head
    rw [List.head?_eq_getElem?] at h2
    have h1 : names[i]? = some "VSUBS" := by
      rw [List.getElem?_eq_getElem hi, ← List.getD_eq_getElem _ "" hi, h]
    exact h0 ((List.getElem?_inj hi hs.nodup).1 (h1.trans h2.symm))
  · exact ((gives_drawn ht hl hg).1).resolve_right (hmim l hl _ rs hg)

theorem overlap_given {t : Technology} (ht : Shipped t) {x : Context} (hmim : WithoutMim t x) {names : List String}
    (hs : IsStack t.read x names) (i j : Nat) (hij : i < j) (hj : j < names.length) :
    ∃ s, OverlapIs t.parasitics (names.getD j "") (names.getD i "") s := by
  have hb := stack_names ht hmim hs hj (by omega)
  have hsome : ∀ {a b : String}, (Overlap.specOf t.parasitics a b).isSome = true → ∃ s, OverlapIs t.parasitics a b s := by
    intro a b h
    obtain ⟨s, h⟩ := Option.isSome_iff_exists.1 h
    exact ⟨s, (Overlap.specOf_iff _ _ _ _).1 h⟩
  by_cases h0 : i = 0
  · have h2 := hs.head
    rw [List.head?_eq_getElem?] at h2
    have : names.getD i "" = "VSUBS" := by
      subst h0
      rw [List.getD_eq_getElem?_getD, h2]; rfl
    rw [this]
    exact hsome (substrate_ok ht _ hb)
  · have hi : i < names.length := by omega
    have ha := stack_names ht hmim hs hi h0
    have hne : names.getD i "" ≠ names.getD j "" := by
      intro e
      rw [List.getD_eq_getElem _ _ hi, List.getD_eq_getElem _ _ hj] at e
      have := (hs.nodup.getElem_inj_iff).1 e
      omega
    have hgi : names[i]? = some (names.getD i "") := by rw [List.getD_eq_getElem _ _ hi, List.getElem?_eq_getElem hi]
    have hgj : names[j]? = some (names.getD j "") := by rw [List.getD_eq_getElem _ _ hj, List.getElem?_eq_getElem hj]
    have nvs : ∀ k, k < names.length → k ≠ 0 → names.getD k "" ∈ names := by
      intro k hk _
      rw [List.getD_eq_getElem _ _ hk]; exact List.getElem_mem hk
    have notV : ∀ k, k < names.length → k ≠ 0 → names.getD k "" ≠ "VSUBS" := by
      intro k hk h0 e
      have h2 := hs.head
      rw [List.head?_eq_getElem?] at h2
      have h1 : names[k]? = some "VSUBS" := by
        rw [List.getElem?_eq_getElem hk, ← List.getD_eq_getElem _ "" hk, e]
      exact h0 ((List.getElem?_inj hk hs.nodup).1 (h1.trans h2.symm))
    rcases hs.order i j _ _ hij hgi hgj with h | ⟨s₁, l, s₂, e, ⟨rs, hl⟩, hno⟩
    · exact absurd h (notV i hi h0)
    · rcases (hs.mem _).1 (nvs j hj (by omega)) with h | ⟨l', hl', rs', hg'⟩
      · exact absurd h (notV j hj (by omega))
      · have hpw := overlap_ok ht
        rw [e] at hl' hpw
        rcases List.mem_append.1 hl' with h | h
        · exact absurd hg' (hno l' h rs')
        · rcases List.mem_cons.1 h with rfl | h
          · exact absurd ((Engine25.Gives.unique hl hg').1) hne
          · have hr := (List.pairwise_cons.1 (List.pairwise_append.1 hpw).2.1).1 l' h
            obtain ⟨⟨c, hc⟩, hcan, _⟩ := hl
            obtain ⟨⟨c', hc'⟩, hcan', _⟩ := hg'
            have e1 : canonical t.read l.name = some (names.getD i "") := (Engine25.canonical_iff _ _ _).2 hcan
            have e2 : canonical t.read l'.name = some (names.getD j "") := (Engine25.canonical_iff _ _ _).2 hcan'
            unfold overlapGiven at hr
            rw [hc, hc', e1, e2] at hr
            exact hsome ((of_decide_eq_true hr) ha hb hne)

/-! ### Theorems -/

/-- The shapes of the layers of the cell, from the substrate to the top metal, as KLayout merges them. -/
def IsRegions (kl : KLayout) (t : Technology) (x : Context) (halo : ℤ) (R : List (List Poly)) : Prop :=
  ∃ d, Engine25.layerRegions t.read x halo = .ok d ∧ R = d.values.map kl.merged

/-- What is in front of the edges of a cell: KLayout reports no empty polygons, nothing lies beyond the border of the
substrate, and different nets on one layer keep a distance of more than 0.057 µm. -/
structure Spaced (kl : KLayout) (t : Technology) (x : Context) (halo : ℤ) : Prop where
  reported : ∀ R, IsRegions kl t x halo R → ∀ i, ∀ e ∈ kl.edges R i, ∀ v ∈ e.2, Reported v.2
  border : ∀ R, IsRegions kl t x halo R → ∀ e ∈ kl.edges R 0, ∀ v ∈ e.2, v.2 = []
  apart : ∀ R, IsRegions kl t x halo R → ∀ i, ∀ e ∈ kl.edges R i, ∀ v ∈ e.2, ∀ ps, (i, ps) ∈ v.2 → ∀ p ∈ ps, p.net ≠ e.1 →
    ∀ y, Bottom p.cells y → 0.057 < y * x.dbu

/-- The layers of the cell can always be collected. -/
theorem shipped_layers {t : Technology} (ht : Shipped t) {x : Context} (hsrc : ∀ g, x.extracted.get? g ≠ some [])
    (halo : ℤ) : ∃ d, Engine25.layerRegions t.read x halo = .ok d :=
  (Engine25.layers_ok_iff _ _ _).2 fun l hl hm => by
    obtain ⟨n, hn, _⟩ := metal_name ht hl hm
    exact ⟨⟨n, hn⟩, fun g _ => hsrc g, fun c _ g _ => hsrc g⟩

/-- **C86 (partial).** With a shipped technology and any side halo other than 0 (option `--halo`), the extraction of the
capacitances of a cell without MIM capacitors runs to the end and yields a netlist. Missing: cells with MIM capacitors and nets that are too close, for which the claim is false
(`mim_fails`, `too_close_fails`). -/
theorem shipped_runs_halo_partial {t : Technology} (ht : Shipped t) {h : ℚ} (h0 : h ≠ 0) {kl : KLayout} (hk : KernelOK kl.kernel) {x : Context}
    (hsrc : ∀ g, x.extracted.get? g ≠ some []) (hmim : WithoutMim t x) {halo : ℤ} (hsp : Spaced kl t x halo) (scale : Bool)
    (res : Except String (List Summary.RNetwork)) :
    (∀ cf c bb, ∃ c', Engine25.run kl cf (Engine25.withHalo t.read h) x .CC scale halo res c bb = .ok c') ∧
    ∀ nets, ∃ cells, Engine25.extract kl (Engine25.withHalo t.read h) x .RC scale halo (.ok nets) = .ok cells := by
  obtain ⟨d, hd⟩ := shipped_layers ht hsrc halo
  have hR : IsRegions kl t x halo (d.values.map kl.merged) := ⟨d, hd, rfl⟩
  obtain ⟨hst, _⟩ := Engine25.layers_exact _ _ _ _ hd
  obtain ⟨recs, hrecs⟩ := Fringe.extract_succeeds d.keys x.dbu scale (Engine25.withHalo t.read h).parasitics kl.kernel hk
    (loads_ok ht) (fun _ => ⟨h0, (no_zero ht).2⟩) (kl.edges (d.values.map kl.merged)) (by
      intro i hi e he v hv hlen
      have hrep := hsp.reported _ hR i e he v hv
      by_cases h0 : i = 0
      · subst h0
        have := hsp.border _ hR e he v hv
        rw [this]
        exact ⟨by simp, by simp, by simp⟩
      · have ha := stack_names ht hmim hst hi h0
        refine ⟨hrep.nonempty, ?_, ?_⟩
        · intro ps hps p hp hne
          exact can_face ht ha ((hrep.nonempty _ hps).2 p hp) (hsp.apart _ hR i e he v hv ps hps p hp hne)
        · intro j ps hps hji hj
          refine can_couple ht ha ?_ ?_
          · by_cases hj0 : j = 0
            · left
              have h2 := hst.head
              rw [List.head?_eq_getElem?] at h2
              subst hj0
              show d.keys.getD 0 "" = _
              rw [List.getD_eq_getElem?_getD, h2]; rfl
            · exact Or.inr (stack_names ht hmim hst hj hj0)
          · intro hh
            have hh' : d.keys.getD i "" = d.keys.getD j "" := hh
            have hj' : j < d.keys.length := hj
            rw [List.getD_eq_getElem _ _ hi, List.getD_eq_getElem _ _ hj'] at hh'
            exact hji ((hst.nodup.getElem_inj_iff).1 hh').symm)
  have hex : ∀ mode res', Engine25.extract kl (Engine25.withHalo t.read h) x mode scale halo res' = PexMode.extract mode x.cellName
      (.ok (Engine25.overlapOps ⟨d.keys, x.dbu, (Engine25.withHalo t.read h).parasitics⟩ (d.values.map kl.merged)
        (kl.nbh (d.values.map kl.merged)))) (.ok (recs.map (Engine25.recOp kl.rnd))) res' := by
    intro mode res'
    unfold Engine25.extract
    rw [show Engine25.layerRegions (Engine25.withHalo t.read h) x halo = .ok d from hd]
    show PexMode.extract _ _ _ ((Fringe.extract _ _ _ _ _ _).map _) _ = _
    rw [hrecs]
    rfl
  refine ⟨fun cf c bb => ?_, fun nets => ?_⟩
  · cases hrun : Engine25.run kl cf (Engine25.withHalo t.read h) x .CC scale halo res c bb with
    | ok c' => exact ⟨c', rfl⟩
    | error e =>
      exfalso
      unfold Engine25.run at hrun
      rw [hex, (PexMode.unselected_ignored _ _ (.ok []) _ (.ok []) res (.ok [])).2, PexMode.mode_selects] at hrun
      obtain ⟨e', he'⟩ := (Rcx25Netlist.expand_fails_iff cf c _ bb).1 ⟨e, hrun⟩
      simp [Summary.summarizeAll, Dict.values, PexMode.wantedNetworks, Summary.CellResults.summarize, Summary.runCell,
        PexMode.recording_eq, PexMode.networks_run, Summary.summarizeNetworks] at he'
      cases he'
  · rw [hex, PexMode.mode_selects]
    exact ⟨_, rfl⟩

/-- **C86 (partial),** with the side halo of the technology. -/
theorem shipped_runs_partial {t : Technology} (ht : Shipped t) {kl : KLayout} (hk : KernelOK kl.kernel) {x : Context}
    (hsrc : ∀ g, x.extracted.get? g ≠ some []) (hmim : WithoutMim t x) {halo : ℤ} (hsp : Spaced kl t x halo) (scale : Bool)
    (res : Except String (List Summary.RNetwork)) :
    (∀ cf c bb, ∃ c', Engine25.run kl cf t.read x .CC scale halo res c bb = .ok c') ∧
    ∀ nets, ∃ cells, Engine25.extract kl t.read x .RC scale halo (.ok nets) = .ok cells :=
  shipped_runs_halo_partial ht (no_zero ht).1 hk hsrc hmim hsp scale res

/-- **C86 fails for MIM capacitors.** If a plate of a MIM capacitor has an edge, longer than one database unit, with the
substrate or any other layer in front of it, there is no result. -/
theorem mim_fails {t : Technology} (ht : Shipped t) {kl : KLayout} {x : Context} {halo : ℤ}
    {d : Dict String (List Poly)} (hd : Engine25.layerRegions t.read x halo = .ok d) {i j : Nat} (hi : i < d.keys.length)
    (hj : j < d.keys.length) (hji : j ≠ i) (hm : IsMim (d.keys.getD i "")) {e : String × Fringe.Neighborhood}
    (he : e ∈ kl.edges (d.values.map kl.merged) i) {v : (ℚ × ℚ) × Dict Nat (List Poly)} (hv : v ∈ e.2)
    (hlen : 1 < v.1.2 - v.1.1) {ps : List Poly} (hps : (j, ps) ∈ v.2) (mode : PexMode.Mode) (hmode : mode ≠ .R) (scale : Bool)
    (res : Except String (List Summary.RNetwork)) (cf : String → String) (c : Netlist.Circuit) (bb : Bool) :
    ∃ m, Engine25.run kl cf t.read x mode scale halo res c bb = .error m := by
  have hf := Fringe.extract_fails d.keys x.dbu scale t.read.parasitics kl.kernel (kl.edges (d.values.map kl.merged)) i j hi hj
    hji e he v hv hlen ps hps (mim_cannot ht hm)
  unfold Engine25.run Engine25.extract
  rw [hd]
  show ∃ m, (PexMode.extract mode x.cellName _ ((Fringe.extract _ _ _ _ _ _).map _) res >>= _) = .error m
  cases hx : Fringe.extract d.keys x.dbu scale t.read.parasitics kl.kernel (kl.edges (d.values.map kl.merged)) with
  | ok recs => exact absurd hx (hf recs)
  | error m =>
    refine ⟨m, ?_⟩
    cases mode with
    | CC => rfl
    | RC => rfl
    | R => exact absurd rfl hmode

theorem metal1_sidewall {s : SidewallSpec} (h : IsLast (fun s => s.layer = "Metal1") Sg13g2.tech.parasitics.sidewalls s) :
    s = ⟨"Metal1", 28.735, -0.057⟩ := by
  have h1 := (Fringe.sidewallTable_get _ _ _).2 h
  have h2 : (TechInfo.sidewallTable Sg13g2.tech.parasitics).get? "Metal1" = some ⟨"Metal1", 28.735, -0.057⟩ := by
    decide +kernel
  rw [h2] at h1
  exact (Option.some.inj h1).symm

/-- **C86 fails for nets that are too close.** With ihp_sg13g2, if only other nets at a distance of exactly 0.057 µm lie in
front of an edge on the first metal, there is no result. -/
theorem too_close_fails {kl : KLayout} {x : Context} {halo : ℤ} {d : Dict String (List Poly)}
    (hd : Engine25.layerRegions Sg13g2.tech.read x halo = .ok d) {i : Nat} (hi : i < d.keys.length)
    (hm : d.keys.getD i "" = "Metal1") {e : String × Fringe.Neighborhood}
    (he : e ∈ kl.edges (d.values.map kl.merged) i) {v : (ℚ × ℚ) × Dict Nat (List Poly)} (hv : v ∈ e.2)
    (hlen : 1 < v.1.2 - v.1.1) {ps : List Poly} (hps : (i, ps) ∈ v.2)
    (hclose : ∀ p ∈ ps, p.net ≠ e.1 ∧ ∃ y, Bottom p.cells y ∧ y * x.dbu = 0.057) (mode : PexMode.Mode) (hmode : mode ≠ .R)
    (scale : Bool) (res : Except String (List Summary.RNetwork)) (cf : String → String) (c : Netlist.Circuit) (bb : Bool) :
    ∃ m, Engine25.run kl cf Sg13g2.tech.read x mode scale halo res c bb = .error m := by
  have hf := Fringe.extract_fails_sidewall d.keys x.dbu scale Sg13g2.tech.read.parasitics kl.kernel
    (kl.edges (d.values.map kl.merged)) i hi e he v hv hlen ps hps (by
      intro p hp
      obtain ⟨hn, y, hy, hyd⟩ := hclose p hp
      refine ⟨?_, hn, ?_⟩
      · obtain ⟨⟨a, ha, _⟩, _⟩ := hy; exact ⟨a, ha⟩
      · rintro ⟨s, y', hl, hy', hne⟩
        rw [hm] at hl
        rw [metal1_sidewall hl, ← hy.unique hy', hyd] at hne
        norm_num at hne)
  unfold Engine25.run Engine25.extract
  rw [hd]
  show ∃ m, (PexMode.extract mode x.cellName _ ((Fringe.extract _ _ _ _ _ _).map _) res >>= _) = .error m
  cases hx : Fringe.extract d.keys x.dbu scale Sg13g2.tech.read.parasitics kl.kernel (kl.edges (d.values.map kl.merged)) with
  | ok recs => exact absurd hx (hf recs)
  | error m =>
    refine ⟨m, ?_⟩
    cases mode with
    | CC => rfl
    | RC => rfl
    | R => exact absurd rfl hmode

/-! ### Sign -/

/-- What a successful run has done. -/
theorem run_records {kl : KLayout} {cf : String → String} {t : TechInfo.Tech} {x : Context} {mode : PexMode.Mode}
    (hmode : mode ≠ .R) {scale : Bool} {halo : ℤ} {res : Except String (List Summary.RNetwork)} {c c' : Netlist.Circuit}
    {bb : Bool} (hrun : Engine25.run kl cf t x mode scale halo res c bb = .ok c') :
    ∃ d recs nets, Engine25.layerRegions t x halo = .ok d ∧
      Fringe.extract d.keys x.dbu scale t.parasitics kl.kernel (kl.edges (d.values.map kl.merged)) = .ok recs ∧
      Rcx25Netlist.expand cf c (Summary.runCells [(x.cellName,
        (Engine25.overlapOps ⟨d.keys, x.dbu, t.parasitics⟩ (d.values.map kl.merged) (kl.nbh (d.values.map kl.merged)) ++
          recs.map (Engine25.recOp kl.rnd)).map PexMode.CapOp.toOp ++ List.map Summary.Op.network nets)]) bb = .ok c' := by
  unfold Engine25.run at hrun
  rw [Exc.bind_ok] at hrun
  obtain ⟨cells, h1, h2⟩ := hrun
  unfold Engine25.extract at h1
  rw [Exc.bind_ok] at h1
  obtain ⟨d, hd, h3⟩ := h1
  simp only at h3
  cases hfr : Fringe.extract d.keys x.dbu scale t.parasitics kl.kernel (kl.edges (d.values.map kl.merged)) with
  | error m =>
    rw [hfr] at h3
    cases mode with
    | R => exact absurd rfl hmode
    | CC => cases h3
    | RC => cases h3
  | ok recs =>
    rw [hfr] at h3
    have h3' : PexMode.extract mode x.cellName (.ok (Engine25.overlapOps ⟨d.keys, x.dbu, t.parasitics⟩
      (d.values.map kl.merged) (kl.nbh (d.values.map kl.merged)))) (.ok (recs.map (Engine25.recOp kl.rnd))) res = .ok cells := h3
    cases mode with
    | R => exact absurd rfl hmode
    | CC =>
      rw [(PexMode.unselected_ignored _ _ (.ok []) _ (.ok []) res (.ok [])).2, PexMode.mode_selects] at h3'
      refine ⟨d, recs, [], hd, hfr, ?_⟩
      rw [← Except.ok.inj h3'] at h2
      exact h2
    | RC =>
      cases res with
      | error m => cases h3'
      | ok nets =>
        rw [PexMode.mode_selects] at h3'
        refine ⟨d, recs, nets, hd, hfr, ?_⟩
        rw [← Except.ok.inj h3'] at h2
        exact h2

/-- **C87 (partial).** With a shipped technology, the capacitances of the netlist are not negative if different nets on one
layer keep a distance of more than 0.057 µm. Missing: smaller distances, for which the claim is false (`metal1_negative`). -/
theorem shipped_nonneg_partial {t : Technology} (ht : Shipped t) {kl : KLayout} (hk : KernelOK kl.kernel)
    (hrnd : ∀ r, 0 ≤ r → 0 ≤ kl.rnd r) {x : Context} (hdbu : 0 < x.dbu) {halo : ℤ} (hsp : Spaced kl t x halo) {scale : Bool}
    {cf : String → String} {mode : PexMode.Mode} (hmode : mode ≠ .R) {res : Except String (List Summary.RNetwork)}
    {c c' : Netlist.Circuit} {bb : Bool} (hno : ∀ d ∈ c.devices, d.clsName ≠ "C")
    (hrun : Engine25.run kl cf t.read x mode scale halo res c bb = .ok c') (a b : String) :
    0 ≤ Rcx25Netlist.parasiticCap c' a b := by
  obtain ⟨d, recs, nets, hd, hrec, hexp⟩ := run_records hmode hrun
  have hR : IsRegions kl t x halo (d.values.map kl.merged) := ⟨d, hd, rfl⟩
  obtain ⟨hst, _⟩ := Engine25.layers_exact _ _ _ _ hd
  rw [Rcx25Netlist.netlist_total_matches_recordings cf c c' _ (by simp) bb hno hexp a b]
  simp only [List.map_cons, List.map_nil, List.sum_cons, List.sum_nil, add_zero]
  obtain ⟨p1, p2⟩ := Fringe.extract_positive d.keys hst.nodup x.dbu hdbu scale t.read.parasitics (values_ok ht).2.2.2 kl.kernel hk
    (kl.edges (d.values.map kl.merged)) (fun i _ => hsp.reported _ hR i) (by
      intro i hi e he v hv ps hps p hp hne y hy s hs
      have hd1 := hsp.apart _ hR i e he v hv ps hps p hp hne y hy
      have hoff : -0.057 ≤ s.offset := offset_ok ht s hs.mem
      linarith) recs hrec
  refine List.sum_nonneg ?_
  intro q hq
  obtain ⟨op, hop, rfl⟩ := List.mem_map.1 hq
  have hop := (List.mem_filter.1 hop).1
  rcases List.mem_append.1 hop with h | h
  · obtain ⟨o, ho, rfl⟩ := List.mem_map.1 h
    rcases List.mem_append.1 ho with ho | ho
    · unfold Engine25.overlapOps at ho
      obtain ⟨lr, hlr, ho⟩ := List.mem_flatMap.1 ho
      obtain ⟨p, hp, ho⟩ := List.mem_flatMap.1 ho
      obtain ⟨r, hr, rfl⟩ := List.mem_map.1 ho
      have hi : lr.2 < d.keys.length := by
        have := List.mem_zipIdx hlr
        have hlen : (d.values.map kl.merged).length = d.keys.length := by simp [Dict.values, Dict.keys]
        omega
      exact (Overlap.records_sound _ _ hi _ _ r hr).1.le
    · obtain ⟨r, hr, rfl⟩ := List.mem_map.1 ho
      cases r with
      | sidewall s => exact (p1 s hr).le
      | fringe key v => exact hrnd v (by have := p2 key v hr; linarith)
  · obtain ⟨n, _, rfl⟩ := List.mem_map.1 h
    exact le_refl _

/-- **C87 fails for ihp_sg13g2.** Every sidewall capacitance between nets on the first metal that are closer than 0.057 µm is
negative. -/
theorem metal1_negative (net : String) {dbu length : ℚ} (hdbu : 0 < dbu) (hlen : 0 < length) {p : Poly}
    {c : Summary.SidewallCap} (hc : Fringe.SidewallLaw Sg13g2.tech.parasitics "Metal1" net dbu length p c)
    (hd : ∀ y, Bottom p.cells y → y * dbu < 0.057) : c.capValue < 0 := by
  obtain ⟨s, y, hl, hy, _, hv⟩ := hc
  have hy' := hd y hy
  rw [hv, metal1_sidewall hl]
  have h1 : (y : ℚ) * dbu + -0.057 < 0 := by linarith
  have h2 : 0 < length * dbu * 28.735 := by positivity
  have h3 := div_neg_of_pos_of_neg h2 h1
  show length * dbu * 28.735 / (y * dbu + -0.057) / 2 / 1000 < 0
  linarith

/-! ### Overlaps -/

open Classical in
/-- **C66 for the shipped technologies.** For a cell without MIM capacitors the netlist contains the overlap capacitance of
all areas where one net faces another, with the values of the technology, plus the sidewall and fringe records of all
edges; nothing has to be assumed about the technology. -/
theorem shipped_netlist {t : Technology} (ht : Shipped t) (kl : KLayout) (hkl : Engine25.Faithful kl)
    (hk : KernelOK kl.kernel) (cf : String → String) (x : Context) (hmim : WithoutMim t x) (mode : PexMode.Mode)
    (hmode : mode = .CC ∨ mode = .RC) (scale : Bool) (halo : ℤ) (res : Except String (List Summary.RNetwork))
    (c c' : Netlist.Circuit) (bb : Bool) (hrun : Engine25.run kl cf t.read x mode scale halo res c bb = .ok c')
    (hno : ∀ d ∈ c.devices, d.clsName ≠ "C") (hshort : Engine25.NoShorts t.read x halo)
    (hedges : ∀ R i, ∀ e ∈ kl.edges R i, ∀ v ∈ e.2, Reported v.2) :
    ∃ (cap : String → String → ℚ) (names : List String) (R : List (List Poly))
      (out : Nat → String → (ℚ × ℚ) × Dict Nat (List Poly) → List Fringe.Rec),
      IsStack t.read x names ∧
      (∀ i j, i < j → j < names.length → ∃ s, OverlapIs t.parasitics (names.getD j "") (names.getD i "") s ∧
        s.cap = cap (names.getD j "") (names.getD i "")) ∧
      (∀ i < names.length, ∀ e ∈ kl.edges R i, ∀ v ∈ e.2,
        Engine25.IntervalSpec ⟨names, i, x.dbu, scale, t.parasitics⟩ kl.kernel e.1 v.1 v.2 (out i e.1 v)) ∧
      ∀ a b, a ≠ b → Rcx25Netlist.parasiticCap c' a b = Engine25.overlapTotal t.read x halo names cap a b +
        ∑ i ∈ Finset.range names.length, ((kl.edges R i).map fun e =>
          (e.2.map fun v => Engine25.edgeTotal kl.rnd a b (out i e.1 v)).sum).sum := by
  obtain ⟨v1, v2, v3, _⟩ := values_ok ht
  let cap : String → String → ℚ := fun a b => ((Overlap.specOf t.parasitics a b).map (·.cap)).getD 0
  have hcap : ∀ names, IsStack t.read x names → ∀ i j, i < j → j < names.length →
      ∃ s, OverlapIs t.read.parasitics (names.getD j "") (names.getD i "") s ∧
        s.cap = cap (names.getD j "") (names.getD i "") := by
    intro names hs i j hij hj
    obtain ⟨s, hsp⟩ := overlap_given ht hmim hs i j hij hj
    refine ⟨s, hsp, ?_⟩
    show s.cap = ((Overlap.specOf t.parasitics _ _).map (·.cap)).getD 0
    rw [(Overlap.specOf_iff _ _ _ _).2 hsp]; rfl
  obtain ⟨names, R, out, h1, _, _, h2, h3⟩ := Engine25.netlist_capacitance kl hkl hk cf t.read x mode hmode scale halo res c c'
    bb hrun hno hshort (by
      intro l hl hm hc
      obtain ⟨n, hn, _, hne⟩ := metal_name ht hl hm
      exact hne (hn.unique hc)) ⟨fun o ho => (v2 o ho).le, fun s hs => (v3 s hs).le⟩ cap hcap hedges
  exact ⟨cap, names, R, out, h1, hcap names h1, h2, h3⟩

/-! ### Examples -/

/-- Two nets on met1, 0.14 µm apart, and a third net on met2. -/
def exCell : Context where
  cellName := "TOP"
  dbu := 0.001
  annotated := ⟨0, 0, 2, 142⟩
  internal := ⟨0, 0, 2, 142⟩
  extracted := [((68, 20), [[⟨"A", {(0, 0), (1, 0)}⟩, ⟨"B", {(0, 140), (1, 140)}⟩]]), ((69, 20), [[⟨"C", {(0, 70)}⟩]])]

/-- The neighbourhood of the upper edge of net A. -/
def exKL : KLayout where
  merged := Engine25.unite
  nbh := fun R _ _ => R.zipIdx.map fun e => (e.2, e.1)
  edges := fun _ i => if i = 1 then
    [("A", [((0, 2), [(0, [⟨"", {(0, 0), (1, 0)}⟩]), (1, [⟨"B", {(0, 140), (1, 140)}⟩]), (2, [⟨"C", {(0, 70)}⟩])])])] else []
  kernel := Fringe.rowKernel
  rnd := fun _ => 0

theorem exReported (R i) : ∀ e ∈ exKL.edges R i, ∀ v ∈ e.2, Reported v.2 := by
  intro e he v hv
  by_cases hi : i = 1
  · subst hi
    simp only [exKL, if_true, List.mem_singleton] at he
    subst he
    simp only [List.mem_singleton] at hv
    subst hv
    refine ⟨by decide, ?_⟩
    intro e he
    simp only [List.mem_cons, List.not_mem_nil, or_false] at he
    rcases he with rfl | rfl | rfl <;> exact ⟨by simp, by decide⟩
  · simp only [exKL, if_neg hi, List.not_mem_nil] at he

theorem exSpaced (halo : ℤ) : Spaced exKL Sky130A.tech exCell halo where
  reported := fun R _ i => exReported R i
  border := by
    intro R _ e he
    simp [exKL] at he
  apart := by
    intro R _ i e he v hv ps hps p hp _ y hy
    by_cases hi : i = 1
    · subst hi
      simp only [exKL, if_true, List.mem_singleton] at he
      subst he
      simp only [List.mem_singleton] at hv
      subst hv
      have hps' : ps = [⟨"B", {(0, 140), (1, 140)}⟩] := by simpa using hps
      subst hps'
      simp only [List.mem_singleton] at hp
      subst hp
      obtain ⟨⟨a, ha, rfl⟩, _⟩ := hy
      simp only [Finset.mem_insert, Finset.mem_singleton] at ha
      rcases ha with rfl | rfl <;> (simp only [exCell]; norm_num)
    · simp only [exKL, if_neg hi, List.not_mem_nil] at he

theorem exSourced : ∀ g, exCell.extracted.get? g ≠ some [] := by
  intro g
  simp only [exCell, Dict.get?]
  split_ifs <;> simp

theorem exWithoutMim : WithoutMim Sky130A.tech exCell := by
  have h : ∀ l ∈ Sky130A.tech.read.stack, (match canonical Sky130A.tech.read l.name, TechInfo.gdsPair Sky130A.tech.read l.name with
    | some n, some g => decide (IsMim n → g ≠ (68, 20) ∧ g ≠ (69, 20))
    | _, _ => true) = true := by decide +kernel
  rintro l hl n rs ⟨_, hc, g, hg, hx⟩ hm
  have := h l hl
  have e1 : canonical Sky130A.tech.read l.name = some n := (Engine25.canonical_iff _ _ _).2 hc
  rw [e1, (Engine25.pairIs_iff _ _ _).2 hg] at this
  obtain ⟨h1, h2⟩ := of_decide_eq_true this hm
  simp only [exCell, Dict.get?] at hx
  rw [if_neg (Ne.symm h1), if_neg (Ne.symm h2)] at hx
  cases hx

/-- The example runs, and its capacitances are not negative. -/
example : ∃ c', Engine25.run exKL id Sky130A.tech.read exCell .CC true 8000 (.ok []) ⟨["A", "B"], []⟩ true = .ok c' ∧
    ∀ a b, 0 ≤ Rcx25Netlist.parasiticCap c' a b := by
  obtain ⟨c', h⟩ := (shipped_runs_partial (Or.inl rfl) Fringe.rowKernel_ok exSourced exWithoutMim (exSpaced 8000) true
    (.ok [])).1 id ⟨["A", "B"], []⟩ true
  exact ⟨c', h, shipped_nonneg_partial (Or.inl rfl) Fringe.rowKernel_ok (fun _ _ => le_refl _) (by decide +kernel)
    (exSpaced 8000) (by decide) (by decide) h⟩

/-- A plate of a MIM capacitor above the substrate. -/
def mimCell : Context := { exCell with extracted := [((89, 44), [[⟨"A", {(0, 0), (1, 0)}⟩]])] }

example (cf : String → String) (c : Netlist.Circuit) (bb : Bool) :
    ∃ m, Engine25.run exKL cf Sky130A.tech.read mimCell .CC true 8000 (.ok []) c bb = .error m := by
  obtain ⟨d, hd⟩ := shipped_layers (Or.inl rfl : Shipped Sky130A.tech) (x := mimCell) (by
    intro g
    simp only [mimCell, Dict.get?]
    split_ifs <;> simp) 8000
  have hkeys : d.keys = ["VSUBS", "capm"] := by
    have : (Engine25.layerRegions Sky130A.tech.read mimCell 8000).map Dict.keys = .ok ["VSUBS", "capm"] := by rfl
    rw [hd] at this
    exact Except.ok.inj this
  refine mim_fails (Or.inl rfl) hd (i := 1) (j := 0) (by rw [hkeys]; decide) (by rw [hkeys]; decide) (by decide)
    (by rw [hkeys]; decide) (e := ("A", [((0, 2), [(0, [⟨"", {(0, 0), (1, 0)}⟩]), (1, [⟨"B", {(0, 140), (1, 140)}⟩]),
      (2, [⟨"C", {(0, 70)}⟩])])])) ?_ (List.mem_singleton.2 rfl) (by norm_num) List.mem_cons_self .CC (by decide) _ _ _ _ _
  simp [exKL]

/-- Two nets on the first metal of ihp_sg13g2, 0.05 µm apart. -/
example : ∃ c, Fringe.SidewallLaw Sg13g2.tech.parasitics "Metal1" "A" 0.001 2 ⟨"B", {(0, 50), (1, 50)}⟩ c ∧ c.capValue < 0 := by
  have hl : IsLast (fun s : SidewallSpec => s.layer = "Metal1") Sg13g2.tech.parasitics.sidewalls ⟨"Metal1", 28.735, -0.057⟩ :=
    (Fringe.sidewallTable_get _ _ _).1 (by decide +kernel)
  have hb : Bottom ({(0, 50), (1, 50)} : Finset Overlap.Cell) 50 := by
    refine ⟨⟨(0, 50), by simp, rfl⟩, ?_⟩
    decide
  refine ⟨⟨⟨"Metal1", "A", "B"⟩, 2 * 0.001 * 28.735 / ((50 : ℤ) * 0.001 + -0.057) / 2 / 1000, 0, 0⟩, ⟨_, 50, hl, hb, rfl, rfl⟩, ?_⟩
  norm_num

/-- Two nets on the first metal of ihp_sg13g2, 0.057 µm apart. -/
def closeCell : Context :=
  { exCell with extracted := [((8, 0), [[⟨"A", {(0, 0), (1, 0)}⟩, ⟨"B", {(0, 57), (1, 57)}⟩]])] }

/-- The neighbourhood of the upper edge of net A. -/
def closeKL : KLayout :=
  { exKL with edges := fun _ i => if i = 1 then
      [("A", [((0, 2), [(0, [⟨"", {(0, 0), (1, 0)}⟩]), (1, [⟨"B", {(0, 57), (1, 57)}⟩])])])] else [] }

example (cf : String → String) (c : Netlist.Circuit) (bb : Bool) :
    ∃ m, Engine25.run closeKL cf Sg13g2.tech.read closeCell .CC true 8000 (.ok []) c bb = .error m := by
  obtain ⟨d, hd⟩ := shipped_layers (Or.inr rfl : Shipped Sg13g2.tech) (x := closeCell) (by
    intro g
    simp only [closeCell, Dict.get?]
    split_ifs <;> simp) 8000
  have hkeys : d.keys = ["VSUBS", "Metal1"] := by
    have : (Engine25.layerRegions Sg13g2.tech.read closeCell 8000).map Dict.keys = .ok ["VSUBS", "Metal1"] := by rfl
    rw [hd] at this
    exact Except.ok.inj this
  refine too_close_fails hd (i := 1) (by rw [hkeys]; decide) (by rw [hkeys]; rfl)
    (e := ("A", [((0, 2), [(0, [⟨"", {(0, 0), (1, 0)}⟩]), (1, [⟨"B", {(0, 57), (1, 57)}⟩])])])) ?_ (List.mem_singleton.2 rfl)
    (by norm_num) (List.mem_cons_of_mem _ List.mem_cons_self) ?_ .CC (by decide) _ _ _ _ _
  · simp [closeKL]
  · intro p hp
    obtain rfl := List.mem_singleton.1 hp
    refine ⟨by decide, 57, ⟨⟨(0, 57), by simp, rfl⟩, by decide⟩, ?_⟩
    norm_num [closeCell, exCell]

end Verif.Pdk
