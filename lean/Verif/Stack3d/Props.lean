import Verif.Stack3d.Lemmas
import Verif.Sweep.Props
import Mathlib.Algebra.Order.BigOperators.Group.List
import Mathlib.Data.Int.Interval
import Mathlib.Tactic.NormNum

/-!
# Properties of the 3D model of a process stack
-/

namespace Verif.Stack3d

open Verif.Sweep (Call Covers Drawn Mk z2norm)

variable {P : Type} [DecidableEq P]

/-! ### C22: termination -/

theorem metalDielectrics_ends {t : Tech} (hn : WellNamed t) (ly : Layout P) {m : Metal}
    (hm : m ∈ t.metals) : ∃ r, ∀ fuel, t.layers.length < fuel → metalDielectrics t ly fuel m = some r := by
  cases ho : ly.ofLayer m.name with
  | none => exact ⟨simpleCalls t ly m none, fun fuel _ => by rw [metalDielectrics, ho]⟩
  | some r =>
    cases hl : sideLoop t ly m (t.layers.length + 1) m.name { region := r } with
    | none =>
      obtain ⟨ls, hc, hlen⟩ := sideLoop_none hl
      have := chain_length hn hm hc
      omega
    | some x =>
      have key : ∀ fuel, t.layers.length < fuel → sideLoop t ly m fuel m.name { region := r } = some x :=
        fun fuel hf => sideLoop_mono hf hl
      cases x with
      | error e => exact ⟨.error e, fun fuel hf => by rw [metalDielectrics, ho]; simp only; rw [key fuel hf]⟩
      | ok s =>
        cases hq : simpleCalls t ly m (some s) with
        | error e => exact ⟨.error e, fun fuel hf => by rw [metalDielectrics, ho]; simp only; rw [key fuel hf]; simp only [hq]⟩
        | ok c => exact ⟨.ok (s.calls ++ c), fun fuel hf => by
            rw [metalDielectrics, ho]; simp only; rw [key fuel hf]; simp only [hq]⟩

theorem allDielectrics_ends {t : Tech} (hn : WellNamed t) (ly : Layout P) {ms : List Metal}
    (hm : ∀ m ∈ ms, m ∈ t.metals) : ∃ r, ∀ fuel, t.layers.length < fuel → allDielectrics t ly fuel ms = some r := by
  induction ms with
  | nil => exact ⟨.ok [], fun fuel _ => rfl⟩
  | cons m ms ih =>
    obtain ⟨x, hx⟩ := metalDielectrics_ends hn ly (hm m List.mem_cons_self)
    obtain ⟨y, hy⟩ := ih (fun m' h => hm m' (List.mem_cons_of_mem _ h))
    cases x with
    | error e => exact ⟨.error e, fun fuel hf => by rw [allDielectrics, hx fuel hf]⟩
    | ok c =>
      cases y with
      | error e => exact ⟨.error e, fun fuel hf => by rw [allDielectrics, hx fuel hf]; simp only; rw [hy fuel hf]⟩
      | ok cs => exact ⟨.ok (c ++ cs), fun fuel hf => by rw [allDielectrics, hx fuel hf]; simp only; rw [hy fuel hf]⟩

/-- **C22.** If the names of the process stack are used without ambiguity, building the model ends: it needs at most as many
rounds per metal layer as there are layers, and its outcome does not depend on how many more would be allowed. -/
theorem build_terminates_partial (t : Tech) (hn : WellNamed t) (ly : Layout P) :
    ∃ r, ∀ fuel, t.layers.length < fuel → buildCalls t ly fuel = some r := by
  obtain ⟨x, hx⟩ := allDielectrics_ends hn ly (ms := t.metals) (fun _ h => h)
  cases hf : firstCalls t ly with
  | error e => exact ⟨.error e, fun fuel _ => by rw [buildCalls, hf]⟩
  | ok c =>
    cases x with
    | error e => exact ⟨.error e, fun fuel h => by rw [buildCalls, hf]; simp only; rw [hx fuel h]⟩
    | ok cs => exact ⟨.ok (c ++ cs), fun fuel h => by rw [buildCalls, hf]; simp only; rw [hx fuel h]⟩

/-- A stack with two dielectrics called `A`, one around the metal and one around `A`. -/
def loopTech : Tech where
  layers := [⟨"SUB", .substrate 0 1⟩, ⟨"FOX", .fieldOxide 4⟩, ⟨"M", .metal 1 1 none⟩,
    ⟨"A", .sidewall 7 0 1 "M"⟩, ⟨"A", .sidewall 7 0 1 "A"⟩]
  included := fun _ => true

/-- **C22, counterexample.** With a repeated name the loop over the sidewall dielectrics never ends. -/
theorem build_loops (ly : Layout P) (r : Finset P) (hr : ly.ofLayer "M" = some r) (fuel : Nat) :
    buildCalls loopTech ly fuel = none := by
  have h1 : loopTech.sidewallOf "A" = .ok (some ⟨"A", .sidewall 7 0 1 "A"⟩) := by decide +kernel
  have h2 : loopTech.sidewallOf "M" = .ok (some ⟨"A", .sidewall 7 0 1 "M"⟩) := by decide +kernel
  have key : ∀ fuel s, sideLoop loopTech ly ⟨"M", 1, 1, none⟩ fuel "A" s = none := by
    intro fuel
    induction fuel with
    | zero => intro s; rfl
    | succ fuel ih => intro s; rw [sideLoop, h1]; exact ih _
  have key2 : ∀ s, sideLoop loopTech ly ⟨"M", 1, 1, none⟩ fuel "M" s = none := by
    intro s
    cases fuel with
    | zero => rfl
    | succ fuel => rw [sideLoop, h2]; exact key _ _
  have hm : loopTech.metals = [⟨"M", 1, 1, none⟩] := rfl
  have hf : ∃ c, firstCalls loopTech ly = .ok c := ⟨_, rfl⟩
  obtain ⟨c, hc⟩ := hf
  have hd : metalDielectrics loopTech ly fuel ⟨"M", 1, 1, none⟩ = none := by
    rw [metalDielectrics, hr]
    simp only
    rw [key2]
  rw [buildCalls, hc]
  simp only
  rw [hm, allDielectrics, hd]

/-! ### C55: conductors -/

theorem covers_conductorIf {dbu : ℚ} {r : Option (Finset P)} {net : String} {z h : ℚ} {mk : Mk} {k : Int} {p : P} :
    (∃ c ∈ conductorIf r net z h, Covers dbu mk k p c) ↔
      mk = .net net ∧ (∃ q, r = some q ∧ p ∈ q) ∧ InSlab dbu z h k := by
  cases r with
  | none => simp [conductorIf]
  | some q =>
    by_cases e : q = ∅
    · subst e; simp [conductorIf]
    · simp [conductorIf, e, Covers, InSlab]

theorem covers_netCalls {dbu : ℚ} {t : Tech} {ly : Layout P} {net : String} {mk : Mk} {k : Int} {p : P} :
    (∃ c ∈ netCalls t ly net, Covers dbu mk k p c) ↔
      mk = .net net ∧ ∃ n z h, Level t n z h ∧ (∃ r, ly.ofNet n net = some r ∧ p ∈ r) ∧ InSlab dbu z h k := by
  constructor
  · rintro ⟨c, hc, hcov⟩
    rw [netCalls, List.mem_append, List.mem_flatMap, List.mem_flatMap] at hc
    rcases hc with ⟨m, hm, hc⟩ | ⟨d, hd, hc⟩
    · have hm := mem_metals.1 hm
      rw [metalCalls, List.mem_append] at hc
      rcases hc with hc | hc
      · obtain ⟨h1, h2, h3⟩ := covers_conductorIf.1 ⟨c, hc, hcov⟩
        exact ⟨h1, _, _, _, .metal hm, h2, h3⟩
      · cases hca : m.contactAbove with
        | none => rw [hca] at hc; simp at hc
        | some ct =>
          rw [hca] at hc hm
          obtain ⟨h1, h2, h3⟩ := covers_conductorIf.1 ⟨c, hc, hcov⟩
          exact ⟨h1, _, _, _, .via hm, h2, h3⟩
    · have hd := mem_diffusions.1 hd
      rw [diffusionCalls, List.mem_append] at hc
      rcases hc with hc | hc
      · obtain ⟨h1, h2, h3⟩ := covers_conductorIf.1 ⟨c, hc, hcov⟩
        exact ⟨h1, _, _, _, .diffusion hd, h2, h3⟩
      · obtain ⟨h1, h2, h3⟩ := covers_conductorIf.1 ⟨c, hc, hcov⟩
        exact ⟨h1, _, _, _, .contact hd, h2, h3⟩
  · rintro ⟨rfl, n, z, h, hl, hr, hs⟩
    cases hl with
    | @metal _ _ _ ca hm =>
      obtain ⟨c, hc, hcov⟩ := (covers_conductorIf (dbu := dbu) (mk := .net net)).2 ⟨rfl, hr, hs⟩
      refine ⟨c, ?_, hcov⟩
      rw [netCalls, List.mem_append, List.mem_flatMap]
      exact Or.inl ⟨⟨n, z, h, ca⟩, mem_metals.2 hm, by rw [metalCalls, List.mem_append]; exact Or.inl hc⟩
    | @via nm z th ct hm =>
      obtain ⟨c, hc, hcov⟩ := (covers_conductorIf (dbu := dbu) (mk := .net net)).2 ⟨rfl, hr, hs⟩
      refine ⟨c, ?_, hcov⟩
      rw [netCalls, List.mem_append, List.mem_flatMap]
      exact Or.inl ⟨⟨nm, z, th, some ct⟩, mem_metals.2 hm, by rw [metalCalls, List.mem_append]; exact Or.inr hc⟩
    | @diffusion _ ct hm =>
      obtain ⟨c, hc, hcov⟩ := (covers_conductorIf (dbu := dbu) (mk := .net net)).2 ⟨rfl, hr, hs⟩
      refine ⟨c, ?_, hcov⟩
      rw [netCalls, List.mem_append, List.mem_flatMap (l := t.diffusions)]
      exact Or.inr ⟨⟨n, ct⟩, mem_diffusions.2 hm, by rw [diffusionCalls, List.mem_append]; exact Or.inl hc⟩
    | @contact nm ct hm =>
      obtain ⟨c, hc, hcov⟩ := (covers_conductorIf (dbu := dbu) (mk := .net net)).2 ⟨rfl, hr, hs⟩
      refine ⟨c, ?_, hcov⟩
      rw [netCalls, List.mem_append, List.mem_flatMap (l := t.diffusions)]
      exact Or.inr ⟨⟨nm, ct⟩, mem_diffusions.2 hm, by rw [diffusionCalls, List.mem_append]; exact Or.inr hc⟩

theorem mem_substrateRegion {t : Tech} {ly : Layout P} {p : P} : p ∈ substrateRegion t ly ↔
    p ∈ ly.block ∧ ∀ net ∈ ly.nets, ∀ n c r, ⟨n, .diffusion c⟩ ∈ t.layers → ly.ofNet n net = some r → r ≠ ∅ →
      p ∉ ly.sized ⌊1 / ly.dbu⌋ r := by
  have h1 : ∀ (ds : List (Finset P)) (s : Finset P),
      p ∈ ds.foldl (fun s d => s \ ly.sized ⌊1 / ly.dbu⌋ d) s ↔ p ∈ s ∧ ∀ d ∈ ds, p ∉ ly.sized ⌊1 / ly.dbu⌋ d := by
    intro ds
    induction ds with
    | nil => simp
    | cons d ds ih =>
      intro s
      rw [List.foldl_cons, ih]
      simp only [Finset.mem_sdiff, List.mem_cons, forall_eq_or_imp]
      tauto
  have h2 : ∀ r, r ∈ diffusionRegions t ly ↔ ∃ net ∈ ly.nets, ∃ n c, ⟨n, .diffusion c⟩ ∈ t.layers ∧
      ly.ofNet n net = some r ∧ r ≠ ∅ := by
    intro r
    rw [diffusionRegions, List.mem_flatMap]
    constructor
    · rintro ⟨net, hnet, h⟩
      obtain ⟨d, hd, h⟩ := List.mem_flatMap.1 h
      cases ho : ly.ofNet d.1 net with
      | none => rw [ho] at h; simp at h
      | some q =>
        rw [ho] at h
        by_cases e : q = ∅
        · simp [e] at h
        · simp only [e, if_false, List.mem_singleton] at h
          subst h
          exact ⟨net, hnet, _, _, mem_diffusions.1 hd, ho, e⟩
    · rintro ⟨net, hnet, n, c, hd, ho, e⟩
      refine ⟨net, hnet, List.mem_flatMap.2 ⟨(n, c), mem_diffusions.2 hd, ?_⟩⟩
      simp [ho, e]
  rw [substrateRegion, h1]
  apply and_congr Iff.rfl
  constructor
  · intro h net hnet n c r hd ho hr
    exact h r ((h2 r).2 ⟨net, hnet, n, c, hd, ho, hr⟩)
  · intro h r hr
    obtain ⟨net, hnet, n, c, hd, ho, hr⟩ := (h2 r).1 hr
    exact h net hnet n c r hd ho hr

theorem drawn_append {dbu : ℚ} {a b : List (Call P)} {mk : Mk} {k : Int} {p : P} :
    Drawn dbu (a ++ b) mk k p ↔ Drawn dbu a mk k p ∨ Drawn dbu b mk k p := by
  simp only [Drawn, List.mem_append, or_and_right, exists_or]

theorem drawn_materials {dbu : ℚ} {ds : List (String × ℚ)} {mk : Mk} {k : Int} {p : P} :
    ¬ Drawn (P := P) dbu (ds.map (fun d => .material d.1 d.2)) mk k p := by
  rintro ⟨c, hc, hcov⟩
  obtain ⟨d, _, rfl⟩ := List.mem_map.1 hc
  exact hcov

theorem drawn_flatMap {dbu : ℚ} {α : Type} {l : List α} {f : α → List (Call P)} {mk : Mk} {k : Int} {p : P} :
    Drawn dbu (l.flatMap f) mk k p ↔ ∃ x ∈ l, Drawn dbu (f x) mk k p := by
  simp only [Drawn, List.mem_flatMap]
  constructor
  · rintro ⟨c, ⟨x, hx, hc⟩, h⟩; exact ⟨x, hx, c, hc, h⟩
  · rintro ⟨x, hx, c, hc, h⟩; exact ⟨c, ⟨x, hx, hc⟩, h⟩

theorem dielectrics_only {t : Tech} {ly : Layout P} {fuel : Nat} {cs : List (Call P)}
    (h : allDielectrics t ly fuel t.metals = some (.ok cs)) {c : Call P} (hc : c ∈ cs) :
    ∃ n l z ht, c = .dielectric n l z ht ∧ ∃ d ∈ t.dielectrics, d.name = n := by
  obtain ⟨m, hm, cm, hcm, hc⟩ := ((allDielectrics_ok h).2 c).1 hc
  have hsimple : ∀ d hh, t.simpleAbove m.name = (some d, hh) → d ∈ t.dielectrics := by
    intro d hh hs
    have key : ∀ ls found diel d hh, simpleAboveLoop t m.name found diel ls = (some d, hh) →
        diel = some d ∨ (d ∈ ls ∧ d.kind.dielectricK.isSome ∧ t.included d.name = true) := by
      intro ls
      induction ls with
      | nil =>
        intro found diel d hh h
        simp only [simpleAboveLoop, Prod.mk.injEq] at h
        exact Or.inl h.1
      | cons l ls ih =>
        intro found diel d hh h
        rw [loop_cons] at h
        have up : ∀ {found diel'}, (simpleAboveLoop t m.name found diel' ls = (some d, hh)) →
            diel' = some d ∨ (d ∈ l :: ls ∧ d.kind.dielectricK.isSome ∧ t.included d.name = true) := by
          intro found diel' h'
          rcases ih _ _ _ _ h' with h' | ⟨h1, h2⟩
          · exact Or.inl h'
          · exact Or.inr ⟨List.mem_cons_of_mem _ h1, h2⟩
        split at h
        · exact up h
        · split at h
          · exact up h
          · split at h
            · rename_i x hk
              split at h
              · simp at h
              · rename_i hi
                rcases up h with h' | h'
                · simp only [Option.some.injEq] at h'
                  subst h'
                  exact Or.inr ⟨List.mem_cons_self, by simp [hk, Kind.dielectricK], by simpa using hi⟩
                · exact Or.inr h'
            · simp only [Prod.mk.injEq] at h
              exact Or.inl h.1
            · exact up h
    rcases key _ _ _ _ _ hs with h' | ⟨h1, h2, h3⟩
    · simp at h'
    · exact mem_dielectrics.2 ⟨h1, h2, h3⟩
  rcases metalDielectrics_ok hcm with ⟨_, hall⟩ | ⟨r, ls, _, hch, _, _, hall⟩
  · obtain ⟨d, hh, hs, rfl⟩ := (hall c).1 hc
    exact ⟨_, _, _, _, rfl, d, hsimple _ _ hs, rfl⟩
  · rcases (hall c).1 hc with ⟨pre, l, post, e, hx⟩ | ⟨d, hh, hs, hx⟩
    · obtain ⟨b, hw⟩ := hch.mem l (by rw [e]; simp)
      have hl : l ∈ t.dielectrics := (List.mem_filter.1 (mem_wraps.2 hw)).1
      rcases hx with rfl | ⟨f, _, rfl⟩
      · exact ⟨_, _, _, _, rfl, l, hl, rfl⟩
      · exact ⟨_, _, _, _, rfl, l, hl, rfl⟩
    · rcases hx with rfl | rfl
      · exact ⟨_, _, _, _, rfl, d, hsimple _ _ hs, rfl⟩
      · exact ⟨_, _, _, _, rfl, d, hsimple _ _ hs, rfl⟩

/-- **C55.** A net occupies exactly the space of its shapes: metal shapes at the height of their metal, via shapes on top of
their metal, diffusion shapes and contacts from height 0 on; the net `VSUBS` additionally fills the substrate plane below the
layout, except around diffusion. -/
theorem conductors_exact {t : Tech} {ly : Layout P} {fuel : Nat} {calls : List (Call P)}
    (h : buildCalls t ly fuel = some (.ok calls)) (net : String) (k : Int) (p : P) :
    Drawn ly.dbu calls (.net net) k p ↔
      (net ∈ ly.nets ∧ ∃ n z ht, Level t n z ht ∧ (∃ r, ly.ofNet n net = some r ∧ p ∈ r) ∧ InSlab ly.dbu z ht k) ∨
      (net = "VSUBS" ∧ InSubstrate t ly k p) := by
  obtain ⟨c, cs, hf, ha, rfl⟩ := buildCalls_ok h
  obtain ⟨fox, sub, gate, h1, h2, h3, rfl⟩ := firstCalls_ok hf
  have hcs : ¬ Drawn ly.dbu cs (.net net) k p := by
    rintro ⟨c, hc, hcov⟩
    obtain ⟨n, l, z, ht, rfl, _⟩ := dielectrics_only ha hc
    exact absurd hcov.1 (by simp)
  simp only [drawn_append]
  have hm : ¬ Drawn (P := P) ly.dbu [.material fox.1 fox.2] (.net net) k p := by simp [Drawn, Covers]
  have hd : ¬ Drawn ly.dbu [.dielectric fox.1 ly.block 0 (gate.z - 0)] (.net net) k p := by simp [Drawn, Covers]
  have hv : Drawn ly.dbu [.conductor "VSUBS" (substrateRegion t ly) (0 - sub.1 - sub.2) sub.2] (.net net) k p ↔
      (net = "VSUBS" ∧ InSubstrate t ly k p) := by
    simp only [Drawn, List.mem_singleton, exists_eq_left, Covers, Mk.net.injEq, mem_substrateRegion, InSubstrate, zero_sub]
    obtain ⟨pre, n, post, e, hp⟩ := substrate_iff.1 h2
    constructor
    · rintro ⟨rfl, ⟨hb, hx⟩, hs⟩
      exact ⟨rfl, hb, hx, pre, n, _, _, post, e, hp, hs⟩
    · rintro ⟨rfl, hb, hx, pre', n', h', th', post', e', hp', hs⟩
      have : t.substrate = .ok (h', th') := substrate_iff.2 ⟨pre', n', post', e', hp'⟩
      rw [h2] at this
      simp only [Except.ok.injEq] at this
      subst this
      exact ⟨rfl, ⟨hb, hx⟩, hs⟩
  have hn : Drawn ly.dbu (ly.nets.flatMap (netCalls t ly)) (.net net) k p ↔
      (net ∈ ly.nets ∧ ∃ n z ht, Level t n z ht ∧ (∃ r, ly.ofNet n net = some r ∧ p ∈ r) ∧ InSlab ly.dbu z ht k) := by
    rw [drawn_flatMap]
    constructor
    · rintro ⟨x, hx, hc⟩
      obtain ⟨e, hh⟩ := covers_netCalls.1 hc
      simp only [Mk.net.injEq] at e
      subst e
      exact ⟨hx, hh⟩
    · rintro ⟨hx, hh⟩
      exact ⟨net, hx, covers_netCalls.2 ⟨rfl, hh⟩⟩
  have hmat := drawn_materials (P := P) (dbu := ly.dbu) (ds := t.dielectricByName) (mk := .net net) (k := k) (p := p)
  rw [hn, hv]
  constructor
  · rintro (((((h' | h') | h') | h') | h') | h')
    · exact absurd h' hm
    · exact absurd h' hmat
    · exact Or.inl h'
    · exact Or.inr h'
    · exact absurd h' hd
    · exact absurd h' hcs
  · rintro (h' | h')
    · exact Or.inl (Or.inl (Or.inl (Or.inr h')))
    · exact Or.inl (Or.inl (Or.inr h'))

/-! ### C56: dielectrics -/

theorem drawn_mat_calls {dbu : ℚ} {cs : List (Call P)} {n : String} {k : Int} {p : P} :
    Drawn dbu cs (.mat n) k p ↔ ∃ l z h, Call.dielectric n l z h ∈ cs ∧ p ∈ l ∧ InSlab dbu z h k := by
  constructor
  · rintro ⟨c, hc, hcov⟩
    cases c with
    | material => exact absurd hcov (by simp [Covers])
    | conductor => exact absurd hcov.1 (by simp)
    | dielectric m l z h =>
      obtain ⟨e, hp, hs⟩ := hcov
      simp only [Mk.mat.injEq] at e
      subst e
      exact ⟨l, z, h, hc, hp, hs⟩
  · rintro ⟨l, z, h, hc, hp, hs⟩
    exact ⟨_, hc, rfl, hp, hs⟩

theorem first_mat {t : Tech} {ly : Layout P} {c : List (Call P)} (h : firstCalls t ly = .ok c) (n : String) (k : Int)
    (p : P) : Drawn ly.dbu c (.mat n) k p ↔ ∃ fox gate, t.fieldOxide = .ok fox ∧ t.metals.head? = some gate ∧
      n = fox.1 ∧ p ∈ ly.block ∧ InSlab ly.dbu 0 gate.z k := by
  obtain ⟨fox, sub, gate, h1, h2, h3, rfl⟩ := firstCalls_ok h
  simp only [drawn_append]
  have hm : ¬ Drawn (P := P) ly.dbu [.material fox.1 fox.2] (.mat n) k p := by simp [Drawn, Covers]
  have hv : ¬ Drawn ly.dbu [.conductor "VSUBS" (substrateRegion t ly) (0 - sub.1 - sub.2) sub.2] (.mat n) k p := by
    simp [Drawn, Covers]
  have hmat := drawn_materials (P := P) (dbu := ly.dbu) (ds := t.dielectricByName) (mk := .mat n) (k := k) (p := p)
  have hn : ¬ Drawn ly.dbu (ly.nets.flatMap (netCalls t ly)) (.mat n) k p := by
    rw [drawn_flatMap]
    rintro ⟨x, _, hc⟩
    exact absurd (covers_netCalls.1 hc).1 (by simp)
  have hd : Drawn ly.dbu [.dielectric fox.1 ly.block 0 (gate.z - 0)] (.mat n) k p ↔
      n = fox.1 ∧ p ∈ ly.block ∧ InSlab ly.dbu 0 gate.z k := by
    simp [Drawn, Covers, InSlab]
  rw [hd]
  constructor
  · rintro ((((h' | h') | h') | h') | h')
    · exact absurd h' hm
    · exact absurd h' hmat
    · exact absurd h' hn
    · exact absurd h' hv
    · exact ⟨fox, gate, h1, h3, h'⟩
  · rintro ⟨fox', gate', e1, e2, h'⟩
    rw [h1] at e1
    simp only [Except.ok.injEq] at e1
    rw [h3] at e2
    simp only [Option.some.injEq] at e2
    subst e1 e2
    exact Or.inr h'

/-- **C56.** Every dielectric occupies exactly the space the process stack gives it: the field oxide below the first metal,
wrapping dielectrics around the shapes of their metal, conformal dielectrics beside them, and the simple dielectrics in the
space left up to the next metal. -/
theorem dielectrics_exact {t : Tech} (hn : WellNamed t) {ly : Layout P} {fuel : Nat}
    {calls : List (Call P)} (h : buildCalls t ly fuel = some (.ok calls)) (n : String) (k : Int) (p : P) :
    Drawn ly.dbu calls (.mat n) k p ↔ DielectricAt t ly k p n := by
  obtain ⟨c, cs, hf, ha, rfl⟩ := buildCalls_ok h
  obtain ⟨hall1, hall2⟩ := allDielectrics_ok ha
  rw [drawn_append, first_mat hf]
  have metal_of : ∀ {m z th ca}, (⟨m, .metal z th ca⟩ : Layer) ∈ t.layers → (⟨m, z, th, ca⟩ : Metal) ∈ t.metals :=
    fun hm => mem_metals.2 hm
  constructor
  · rintro (⟨fox, gate, h1, h2, rfl, h3, h4⟩ | hd)
    · obtain ⟨pre, post, e, hp⟩ := fieldOxide_iff.1 h1
      obtain ⟨pre', post', e', hp'⟩ := metals_head.1 h2
      exact .fieldOxide e hp e' hp' h3 h4
    · obtain ⟨l, z, ht, hc, hp, hs⟩ := drawn_mat_calls.1 hd
      obtain ⟨m, hm, cm, hcm, hc⟩ := (hall2 _).1 hc
      have hml := mem_metals.1 hm
      rcases metalDielectrics_ok hcm with ⟨ho, hall⟩ | ⟨r, ls, ho, hch, hu, _, hall⟩
      · obtain ⟨d, hh, hsa, e⟩ := (hall _).1 hc
        simp only [Call.dielectric.injEq] at e
        obtain ⟨rfl, rfl, rfl, rfl⟩ := e
        exact .simple ((simpleAbove_iff hn hm _ _).1 hsa) ho hp hs
      · have hfull := fullChain_of hch hu
        rcases (hall _).1 hc with ⟨pre, x, post, e, hx⟩ | ⟨d, hh, hsa, hx⟩
        · have hpre : Chain t m.name (pre ++ [x]) := by
            have : ls = (pre ++ [x]) ++ post := by simp [e]
            rw [this] at hch
            exact hch.prefix
          rcases hx with e | ⟨f, hfl, e⟩ <;>
            · simp only [Call.dielectric.injEq] at e
              obtain ⟨rfl, rfl, rfl, rfl⟩ := e
              first
              | exact .wrap hml ho hpre hp hs
              | exact .floor hml ho hpre hfl (Finset.mem_sdiff.1 hp).1 (Finset.mem_sdiff.1 hp).2 hs
        · have hsp := (simpleAbove_iff hn hm _ _).1 hsa
          rcases hx with e | e <;>
            · simp only [Call.dielectric.injEq] at e
              obtain ⟨rfl, rfl, rfl, rfl⟩ := e
              first
              | exact .above hsp hml ho hfull hp hs
              | exact .beside hsp ho hfull (Finset.mem_sdiff.1 hp).1 (Finset.mem_sdiff.1 hp).2 hs
  · intro hd
    cases hd with
    | @fieldOxide pre post _ e pre' post' m z th ca e1 hp1 e2 hp2 hb hs =>
      left
      exact ⟨(n, e), ⟨m, z, th, ca⟩, fieldOxide_iff.2 ⟨pre, post, e1, hp1⟩, metals_head.2 ⟨pre', post', e2, hp2⟩, rfl, hb, hs⟩
    | @wrap m z th ca r ls l hm ho hch hp hs =>
      right
      obtain ⟨cm, hcm⟩ := hall1 _ (metal_of hm)
      rcases metalDielectrics_ok hcm with ⟨ho', _⟩ | ⟨r', ls', ho', _, hu, _, hall⟩
      · rw [ho] at ho'; simp at ho'
      · rw [ho] at ho'
        simp only [Option.some.injEq] at ho'
        subst ho'
        obtain ⟨x, e⟩ := hu _ hch
        exact drawn_mat_calls.2 ⟨_, _, _, (hall2 _).2 ⟨_, metal_of hm, cm, hcm,
          (hall _).2 (Or.inl ⟨ls, l, x, by rw [← e]; simp, Or.inl rfl⟩)⟩, hp, hs⟩
    | @floor m z th ca r ls l f hm ho hch hfl hb hp hs =>
      right
      obtain ⟨cm, hcm⟩ := hall1 _ (metal_of hm)
      rcases metalDielectrics_ok hcm with ⟨ho', _⟩ | ⟨r', ls', ho', _, hu, _, hall⟩
      · rw [ho] at ho'; simp at ho'
      · rw [ho] at ho'
        simp only [Option.some.injEq] at ho'
        subst ho'
        obtain ⟨x, e⟩ := hu _ hch
        exact drawn_mat_calls.2 ⟨_, _, _, (hall2 _).2 ⟨_, metal_of hm, cm, hcm,
          (hall _).2 (Or.inl ⟨ls, l, x, by rw [← e]; simp, Or.inr ⟨f, hfl, rfl⟩⟩)⟩, Finset.mem_sdiff.2 ⟨hb, hp⟩, hs⟩
    | @simple m z d hh hsp ho hb hs =>
      right
      have hsp' := hsp
      obtain ⟨pre, th, ca, mid, post, e, _⟩ := hsp'
      have hm : (⟨m, z, th, ca⟩ : Metal) ∈ t.metals := mem_metals.2 (by rw [e]; simp)
      obtain ⟨cm, hcm⟩ := hall1 _ hm
      rcases metalDielectrics_ok hcm with ⟨_, hall⟩ | ⟨r', ls', ho', _⟩
      · exact drawn_mat_calls.2 ⟨_, _, _, (hall2 _).2 ⟨_, hm, cm, hcm,
          (hall _).2 ⟨d, hh, (simpleAbove_iff hn hm _ _).2 hsp, rfl⟩⟩, hb, hs⟩
      · rw [ho] at ho'; simp at ho'
    | @above m z th ca d hh r ls hsp hm ho hfc hp hs =>
      right
      obtain ⟨cm, hcm⟩ := hall1 _ (metal_of hm)
      rcases metalDielectrics_ok hcm with ⟨ho', _⟩ | ⟨r', ls', ho', hch, hu, _, hall⟩
      · rw [ho] at ho'; simp at ho'
      · rw [ho] at ho'
        simp only [Option.some.injEq] at ho'
        subst ho'
        have := fullChain_eq hch hu hfc
        subst this
        exact drawn_mat_calls.2 ⟨_, _, _, (hall2 _).2 ⟨_, metal_of hm, cm, hcm,
          (hall _).2 (Or.inr ⟨d, hh, (simpleAbove_iff hn (metal_of hm) _ _).2 hsp, Or.inl rfl⟩)⟩, hp, hs⟩
    | @beside m z d hh r ls hsp ho hfc hb hp hs =>
      right
      have hsp' := hsp
      obtain ⟨pre, th, ca, mid, post, e, _⟩ := hsp'
      have hm : (⟨m, z, th, ca⟩ : Metal) ∈ t.metals := mem_metals.2 (by rw [e]; simp)
      obtain ⟨cm, hcm⟩ := hall1 _ hm
      rcases metalDielectrics_ok hcm with ⟨ho', _⟩ | ⟨r', ls', ho', hch, hu, _, hall⟩
      · rw [ho] at ho'; simp at ho'
      · rw [ho] at ho'
        simp only [Option.some.injEq] at ho'
        subst ho'
        have := fullChain_eq hch hu hfc
        subst this
        exact drawn_mat_calls.2 ⟨_, _, _, (hall2 _).2 ⟨_, hm, cm, hcm,
          (hall _).2 (Or.inr ⟨d, hh, (simpleAbove_iff hn hm _ _).2 hsp, Or.inr rfl⟩)⟩, Finset.mem_sdiff.2 ⟨hb, hp⟩, hs⟩

/-! ### C57: no gaps -/

theorem grown_append (ly : Layout P) (r : Finset P) (a b : List Layer) :
    grown ly r (a ++ b) = grown ly (grown ly r a) b := by
  rw [grown, List.foldl_append]; rfl

theorem grown_grows {ly : Layout P} (hd : 0 < ly.dbu) (hs : ∀ d r, 0 ≤ d → r ⊆ ly.sized d r) {ls : List Layer}
    (hw : ∀ l ∈ ls, 0 ≤ l.kind.width) (r : Finset P) : r ⊆ grown ly r ls := by
  induction ls generalizing r with
  | nil => exact fun _ h => h
  | cons l ls ih =>
    have h1 : r ⊆ ly.sized ⌊l.kind.width / ly.dbu⌋ r :=
      hs _ _ (Int.floor_nonneg.2 (div_nonneg (hw l List.mem_cons_self) hd.le))
    exact h1.trans (ih (fun x hx => hw x (List.mem_cons_of_mem _ hx)) _)

theorem floorOf_cases (ls : List Layer) :
    floorOf ls = 0 ∨ ∃ pre l post, ls = pre ++ l :: post ∧ l.kind.floor = some (floorOf ls) := by
  induction ls using List.reverseRecOn with
  | nil => exact Or.inl rfl
  | append_singleton ls l ih =>
    rw [floorOf_snoc]
    cases h : l.kind.floor with
    | some f => exact Or.inr ⟨ls, l, [], rfl, h⟩
    | none =>
      rcases ih with ih | ⟨pre, x, post, e, hx⟩
      · exact Or.inl ih
      · refine Or.inr ⟨pre, x, post ++ [l], ?_, hx⟩
        conv_lhs => rw [e]
        simp

theorem last_split {α : Type} {Q : α → Prop} {l : List α} (h : ∃ x ∈ l, Q x) :
    ∃ pre x post, l = pre ++ x :: post ∧ Q x ∧ ∀ y ∈ post, ¬ Q y := by
  classical
  induction l with
  | nil => simp at h
  | cons a l ih =>
    by_cases hl : ∃ x ∈ l, Q x
    · obtain ⟨pre, x, post, rfl, h1, h2⟩ := ih hl
      exact ⟨a :: pre, x, post, rfl, h1, h2⟩
    · obtain ⟨x, hx, hq⟩ := h
      rcases List.mem_cons.1 hx with rfl | hx
      · exact ⟨[], x, l, rfl, hq, fun y hy hy' => hl ⟨y, hy, hy'⟩⟩
      · exact absurd ⟨x, hx, hq⟩ hl

theorem z2norm_mono {dbu : ℚ} (hd : 0 < dbu) {a b : ℚ} (h : a ≤ b) : z2norm dbu a ≤ z2norm dbu b := by
  rw [z2norm, z2norm]
  have := div_le_div_of_nonneg_right h hd.le
  exact Int.floor_mono (by linarith)

theorem heightTo_exists (z : ℚ) (post : List Layer) : ∃ h, HeightTo z post h := by
  induction post with
  | nil => exact ⟨5, Or.inr ⟨by simp, rfl⟩⟩
  | cons l post ih =>
    by_cases hm : l.kind.isMetal
    · obtain ⟨n, k⟩ := l
      cases k with
      | metal z' th c => exact ⟨_, heightTo_metal.2 rfl⟩
      | _ => exact absurd hm (by simp [Kind.isMetal])
    · obtain ⟨x, hx⟩ := ih
      exact ⟨x, (heightTo_cons hm).2 hx⟩

/-- **C57.** If every metal of the stack is followed by a simple dielectric that is not filtered out, or directly by another
metal that is not higher, nothing inside the bounding box is left void between height 0 and 5 µm above the bottom of the last
metal. (Growing a region by a non-negative
amount is assumed not to remove anything from it.) -/
theorem no_gaps {t : Tech} (hn : WellNamed t) {ly : Layout P} (hdbu : 0 < ly.dbu)
    (hgrow : ∀ d r, 0 ≤ d → r ⊆ ly.sized d r) (hwidth : ∀ l ∈ t.layers, 0 ≤ l.kind.width)
    (hfill : ∀ pre l post, t.layers = pre ++ l :: post → l.kind.isMetal →
      ∃ mid d post', post = mid ++ d :: post' ∧ (∀ x ∈ mid, ¬ x.kind.isMetal ∧ ¬ x.kind.isSimple) ∧
        (d.kind.isSimple ∧ t.included d.name = true ∨ d.kind.isMetal ∧ d.kind.metalZ ≤ l.kind.metalZ))
    {fuel : Nat} {calls : List (Call P)} (h : buildCalls t ly fuel = some (.ok calls))
    (k : Int) (p : P) (hp : p ∈ ly.block) (hlow : z2norm ly.dbu 0 ≤ k)
    (hhigh : ∀ pre m z th c post, t.layers = pre ++ ⟨m, .metal z th c⟩ :: post → (∀ l ∈ post, ¬ l.kind.isMetal) →
      k < z2norm ly.dbu (z + 5)) :
    ∃ n, Drawn ly.dbu calls (.mat n) k p := by
  suffices hs : ∃ n, DielectricAt t ly k p n by
    obtain ⟨n, hs⟩ := hs
    exact ⟨n, (dielectrics_exact hn h n k p).2 hs⟩
  obtain ⟨c, cs, hf, ha, rfl⟩ := buildCalls_ok h
  obtain ⟨fox, sub, gate, h1, h2, h3, _⟩ := firstCalls_ok hf
  obtain ⟨preg, postg, eg, hpg⟩ := metals_head.1 h3
  obtain ⟨pref, postf, ef, hpf⟩ := fieldOxide_iff.1 h1
  by_cases hk : k < z2norm ly.dbu gate.z
  · exact ⟨fox.1, .fieldOxide ef hpf eg hpg hp ⟨hlow, by rw [zero_add]; exact hk⟩⟩
  · obtain ⟨pre, l, post, e, ⟨hlm, hlz⟩, hpost⟩ := last_split
      (Q := fun l : Layer => l.kind.isMetal ∧ z2norm ly.dbu l.kind.metalZ ≤ k)
      (l := t.layers) ⟨⟨gate.name, .metal gate.z gate.thickness gate.contactAbove⟩, by rw [eg]; simp, trivial, not_lt.1 hk⟩
    obtain ⟨mid, d, post', e', hmid, ⟨hds, hdi⟩ | ⟨hdm, hdz⟩⟩ := hfill pre l post e hlm
    swap
    · exact absurd ⟨hdm, (z2norm_mono hdbu hdz).trans hlz⟩ (hpost d (by rw [e']; simp))
    obtain ⟨m, kd⟩ := l
    cases kd with
    | metal z th ca =>
      simp only [Kind.metalZ] at hlz
      obtain ⟨hh, hht⟩ := heightTo_exists z post'
      have hsp : SimpleAbove t m z d hh :=
        ⟨pre, th, ca, mid, post', by rw [e, e']; simp, hmid, hds, hdi, hht⟩
      have htop : k < z2norm ly.dbu (z + hh) := by
        rcases hht with ⟨mid', n', z', th', c', post'', e'', hm', rfl⟩ | ⟨hnone, rfl⟩
        · have : ¬ z2norm ly.dbu z' ≤ k := by
            intro hz
            exact hpost ⟨n', .metal z' th' c'⟩ (by rw [e', e'']; simp) ⟨trivial, hz⟩
          have e0 : z + (z' - z) = z' := by ring
          rw [e0]
          exact not_le.1 this
        · refine hhigh pre m z th ca post e ?_
          intro x hx
          rw [e'] at hx
          rcases List.mem_append.1 hx with hx | hx
          · exact (hmid x hx).1
          · rcases List.mem_cons.1 hx with rfl | hx
            · intro hxm
              obtain ⟨nx, kx⟩ := x
              cases kx <;> simp [Kind.isMetal, Kind.isSimple] at hxm hds
            · exact hnone x hx
      have hml : (⟨m, .metal z th ca⟩ : Layer) ∈ t.layers := by rw [e]; simp
      obtain ⟨cm, hcm⟩ := (allDielectrics_ok ha).1 ⟨m, z, th, ca⟩ (mem_metals.2 hml)
      rcases metalDielectrics_ok hcm with ⟨ho, _⟩ | ⟨r, ls, ho, hch, hu, _, _⟩
      · exact ⟨d.name, .simple hsp ho hp ⟨hlz, htop⟩⟩
      · have hfull := fullChain_of hch hu
        have hpre : ∀ {a b}, ls = a ++ b → Chain t m a := by
          intro a b e
          rw [e] at hch
          exact hch.prefix
        by_cases hin : p ∈ grown ly r ls
        · by_cases hr : k < z2norm ly.dbu (z + rise th ls)
          · rcases List.eq_nil_or_concat ls with rfl | ⟨ls', x, rfl⟩
            · simp only [rise, List.map_nil, List.sum_nil, add_zero] at hr
              exact absurd hlz (not_le.2 hr)
            · rw [List.concat_eq_append] at *
              exact ⟨x.name, .wrap hml ho hch hin ⟨hlz, hr⟩⟩
          · refine ⟨d.name, .above hsp hml ho hfull hin ⟨not_lt.1 hr, ?_⟩⟩
            have e0 : z + rise th ls + (hh - rise th ls) = z + hh := by ring
            rw [e0]; exact htop
        · by_cases hr : k < z2norm ly.dbu (z + floorOf ls)
          · rcases floorOf_cases ls with h0 | ⟨a, x, b, e0, hx⟩
            · rw [h0, add_zero] at hr
              exact absurd hlz (not_le.2 hr)
            · refine ⟨x.name, .floor hml ho (hpre (a := a ++ [x]) (b := b) (by rw [e0]; simp)) hx hp ?_ ⟨hlz, hr⟩⟩
              intro hmem
              apply hin
              have e1 : ls = (a ++ [x]) ++ b := by rw [e0]; simp
              rw [e1, grown_append]
              apply grown_grows hdbu hgrow _ _ hmem
              intro y hy
              obtain ⟨_, hwy⟩ := hch.mem y (by rw [e0]; simp [hy])
              exact hwidth y hwy.1
          · refine ⟨d.name, .beside hsp ho hfull hp hin ⟨not_lt.1 hr, ?_⟩⟩
            have e0 : z + floorOf ls + (hh - floorOf ls) = z + hh := by ring
            rw [e0]; exact htop
    | _ => exact absurd hlm (by simp [Kind.isMetal])

/-! ### C58: materials -/

/-- The materials declared by a sequence of calls that a builder accepts. -/
theorem build_accepts {dbu : ℚ} {calls : List (Call P)}
    (h : ∀ pre n l z ht post, calls = pre ++ .dielectric n l z ht :: post → ∃ k, Call.material n k ∈ pre) :
    ∃ b, Sweep.build dbu calls = .ok b ∧
      b.materials = Dict.ofList (calls.filterMap (fun | .material n k => some (n, k) | _ => none)) := by
  induction calls using List.reverseRecOn with
  | nil => exact ⟨{ dbu := dbu }, rfl, rfl⟩
  | append_singleton calls c ih =>
    obtain ⟨b, hb, hm⟩ := ih (by
      intro pre n l z ht post e
      exact h pre n l z ht (post ++ [c]) (by rw [e]; simp))
    have hstep : Sweep.build dbu (calls ++ [c]) = b.call c := by
      rw [Sweep.build] at hb ⊢
      rw [List.foldlM_append, hb]
      simp only [bind, Except.bind, List.foldlM_cons, List.foldlM_nil]
      cases b.call c <;> rfl
    rw [hstep]
    cases c with
    | material n k =>
      refine ⟨_, rfl, ?_⟩
      rw [List.filterMap_append]
      show b.materials.set n k = Dict.ofList (_ ++ [(n, k)])
      rw [Dict.ofList_snoc, hm]
    | conductor n l z ht =>
      refine ⟨_, rfl, ?_⟩
      rw [List.filterMap_append]
      show b.materials = _
      simpa using hm
    | dielectric n l z ht =>
      have hk : b.materials.has n = true := by
        rw [hm, Dict.has_iff, Dict.mem_keys_iff, Dict.get?_ofList]
        obtain ⟨k, hk⟩ := h calls n l z ht [] (by simp)
        simp only [Option.isSome_map, List.find?_isSome, List.mem_reverse, List.mem_filterMap, decide_eq_true_eq]
        exact ⟨(n, k), ⟨_, hk, rfl⟩, rfl⟩
      refine ⟨{ b with dlayers := b.dlayers.upd n [] (· ++ [(l, z2norm b.dbu z, z2norm b.dbu (z + ht))]) }, ?_, ?_⟩
      · simp [Sweep.Builder.call, Sweep.Builder.addDielectric, hk]
      · rw [List.filterMap_append]
        simpa using hm

theorem get?_dielectricByName {t : Tech} (n : String) (k : ℚ) :
    t.dielectricByName.get? n = some k ↔
      ∃ pre l post, t.layers = pre ++ l :: post ∧ l.name = n ∧ t.included n = true ∧ l.kind.dielectricK = some k ∧
        ∀ x ∈ post, x.name = n → x.kind.dielectricK = none := by
  rw [Tech.dielectricByName, Tech.dielectrics]
  generalize t.layers = ls
  induction ls using List.reverseRecOn with
  | nil => simp
  | append_singleton ls x ih =>
    have hsnoc : ∀ {Q : List Layer → Layer → List Layer → Prop},
        (∃ pre l post, ls ++ [x] = pre ++ l :: post ∧ Q pre l post) ↔
          Q ls x [] ∨ ∃ pre l post, ls = pre ++ l :: post ∧ Q pre l (post ++ [x]) := by
      intro Q
      constructor
      · rintro ⟨pre, l, post, e, q⟩
        rcases List.eq_nil_or_concat post with rfl | ⟨post', y, rfl⟩
        · obtain ⟨rfl, e2⟩ := List.append_inj' e rfl
          simp only [List.cons.injEq, and_true] at e2
          subst e2
          exact Or.inl q
        · rw [List.concat_eq_append] at e q
          have e' : ls ++ [x] = (pre ++ l :: post') ++ [y] := by rw [e]; simp
          obtain ⟨rfl, e2⟩ := List.append_inj' e' rfl
          simp only [List.cons.injEq, and_true] at e2
          subst e2
          exact Or.inr ⟨pre, l, post', rfl, q⟩
      · rintro (q | ⟨pre, l, post, rfl, q⟩)
        · exact ⟨ls, x, [], rfl, q⟩
        · exact ⟨pre, l, post ++ [x], by simp, q⟩
    rw [hsnoc, List.filter_append, List.foldl_append]
    cases hx : x.kind.dielectricK with
    | none =>
      have e : List.filter (fun l : Layer => l.kind.dielectricK.isSome && t.included l.name) [x] = [] := by
        simp [hx]
      rw [e]
      simp only [List.foldl_nil]
      rw [ih]
      constructor
      · rintro ⟨pre, l, post, e, h1, h2, h3, h4⟩
        refine Or.inr ⟨pre, l, post, e, h1, h2, h3, fun y hy hyn => ?_⟩
        rcases List.mem_append.1 hy with hy | hy
        · exact h4 y hy hyn
        · rw [List.mem_singleton.1 hy]; exact hx
      · rintro (⟨_, _, h3, _⟩ | ⟨pre, l, post, e, h1, h2, h3, h4⟩)
        · simp at h3
        · exact ⟨pre, l, post, e, h1, h2, h3, fun y hy => h4 y (List.mem_append_left _ hy)⟩
    | some v =>
      by_cases hi : t.included x.name = true
      · have e : List.filter (fun l : Layer => l.kind.dielectricK.isSome && t.included l.name) [x] = [x] := by
          simp [hx, hi]
        rw [e]
        simp only [List.foldl_cons, List.foldl_nil, hx]
        refine (iff_of_eq (congrArg (· = some k) (Dict.get?_set _ _ _ _))).trans ?_
        by_cases e : x.name = n
        · subst e
          simp only [if_true]
          constructor
          · intro h
            exact Or.inl ⟨trivial, hi, h, by simp⟩
          · rintro (⟨_, _, h3, _⟩ | ⟨pre, l, post, e, h1, h2, h3, h4⟩)
            · exact h3
            · have := h4 x (by simp) rfl
              rw [hx] at this
              simp at this
        · simp only [e, if_false]
          rw [ih]
          constructor
          · rintro ⟨pre, l, post, e', h1, h2, h3, h4⟩
            refine Or.inr ⟨pre, l, post, e', h1, h2, h3, fun y hy hyn => ?_⟩
            rcases List.mem_append.1 hy with hy | hy
            · exact h4 y hy hyn
            · rw [List.mem_singleton.1 hy] at hyn; exact absurd hyn e
          · rintro (⟨h1, _⟩ | ⟨pre, l, post, e', h1, h2, h3, h4⟩)
            · exact h1.elim
            · exact ⟨pre, l, post, e', h1, h2, h3, fun y hy => h4 y (List.mem_append_left _ hy)⟩
      · have e : List.filter (fun l : Layer => l.kind.dielectricK.isSome && t.included l.name) [x] = [] := by
          simp [hi]
        rw [e]
        simp only [List.foldl_nil]
        rw [ih]
        constructor
        · rintro ⟨pre, l, post, e', h1, h2, h3, h4⟩
          refine Or.inr ⟨pre, l, post, e', h1, h2, h3, fun y hy hyn => ?_⟩
          rcases List.mem_append.1 hy with hy | hy
          · exact h4 y hy hyn
          · rw [List.mem_singleton.1 hy] at hyn; rw [hyn] at hi; exact absurd h2 hi
        · rintro (⟨h1, h2, _⟩ | ⟨pre, l, post, e', h1, h2, h3, h4⟩)
          · rw [h1] at hi; exact absurd h2 hi
          · exact ⟨pre, l, post, e', h1, h2, h3, fun y hy => h4 y (List.mem_append_left _ hy)⟩

theorem get?_ofList_cons (x : String × ℚ) {d : Dict String ℚ} (hd : d.keys.Nodup) (n : String) (k : ℚ) :
    (Dict.ofList (x :: d)).get? n = some k ↔ d.get? n = some k ∨ (x = (n, k) ∧ d.get? n = none) := by
  obtain ⟨m, v⟩ := x
  suffices hs : ∀ l : List (String × ℚ), (l.map Prod.fst).Nodup → ((Dict.ofList ((m, v) :: l)).get? n = some k ↔
      (n, k) ∈ l ∨ ((m, v) = (n, k) ∧ ∀ k', (n, k') ∉ l)) by
    rw [hs d hd, Dict.mem_iff_get? hd]
    apply or_congr Iff.rfl
    apply and_congr Iff.rfl
    rw [Option.eq_none_iff_forall_not_mem]
    exact forall_congr' fun k' => not_congr (Dict.mem_iff_get? hd _ _)
  intro l hl
  induction l using List.reverseRecOn with
  | nil =>
    rw [Dict.ofList, List.foldl_cons, List.foldl_nil, Dict.get?_set]
    by_cases e : m = n
    · simp [e]
    · simp [e]
  | append_singleton l y ih =>
    obtain ⟨a, w⟩ := y
    rw [List.map_append, List.nodup_append] at hl
    have e0 : (m, v) :: (l ++ [(a, w)]) = ((m, v) :: l) ++ [(a, w)] := rfl
    rw [e0, Dict.ofList_snoc, Dict.get?_set]
    by_cases e : a = n
    · subst e
      have hno : ∀ k', (a, k') ∉ l := fun k' h => hl.2.2 a (List.mem_map.2 ⟨_, h, rfl⟩) a (by simp) rfl
      simp only [if_true, Option.some.injEq, List.mem_append, List.mem_singleton, Prod.mk.injEq, true_and, hno, false_or]
      constructor
      · rintro rfl; exact Or.inl rfl
      · rintro (h | ⟨_, h⟩)
        · exact h.symm
        · exact absurd rfl (h w)
    · rw [if_neg e, ih hl.1]
      have e' : ¬ n = a := fun h => e h.symm
      simp [e']

theorem nodup_dielectricByName (t : Tech) : t.dielectricByName.keys.Nodup := by
  rw [Tech.dielectricByName]
  generalize t.dielectrics = ds
  induction ds using List.reverseRecOn with
  | nil => simp
  | append_singleton ds l ih =>
    rw [List.foldl_append]
    simp only [List.foldl_cons, List.foldl_nil]
    cases l.kind.dielectricK with
    | none => exact ih
    | some v => exact Dict.nodup_keys_set _ _ _ ih

theorem materials_aux {t : Tech} {ly : Layout P} {fuel : Nat}
    {calls : List (Call P)} (h : buildCalls t ly fuel = some (.ok calls)) :
    ∃ b, Sweep.build ly.dbu calls = .ok b ∧ ∀ n k, b.materials.get? n = some k ↔
      t.dielectricByName.get? n = some k ∨
      ((∃ pre post, t.layers = pre ++ ⟨n, .fieldOxide k⟩ :: post ∧ ∀ l ∈ pre, ¬ l.kind.isFieldOxide) ∧
        t.dielectricByName.get? n = none) := by
  obtain ⟨c, cs, hf, ha, rfl⟩ := buildCalls_ok h
  obtain ⟨fox, sub, gate, h1, h2, h3, rfl⟩ := firstCalls_ok hf
  have hcond : ∀ net, ∀ c ∈ netCalls t ly net, ∃ n l z ht, c = .conductor n l z ht := by
    have hif : ∀ r net z ht, ∀ c ∈ conductorIf (P := P) r net z ht, ∃ n l z ht, c = .conductor n l z ht := by
      intro r net z ht c hc
      cases r with
      | none => simp [conductorIf] at hc
      | some q =>
        by_cases e : q = ∅
        · simp [conductorIf, e] at hc
        · simp only [conductorIf, e, if_false, List.mem_singleton] at hc
          exact ⟨_, _, _, _, hc⟩
    intro net c hc
    rw [netCalls, List.mem_append, List.mem_flatMap, List.mem_flatMap] at hc
    rcases hc with ⟨m, _, hc⟩ | ⟨d, _, hc⟩
    · rw [metalCalls, List.mem_append] at hc
      rcases hc with hc | hc
      · exact hif _ _ _ _ _ hc
      · cases hca : m.contactAbove with
        | none => rw [hca] at hc; simp at hc
        | some ct => rw [hca] at hc; exact hif _ _ _ _ _ hc
    · rw [diffusionCalls, List.mem_append] at hc
      rcases hc with hc | hc <;> exact hif _ _ _ _ _ hc
  generalize hmats : [Call.material (P := P) fox.1 fox.2] ++ t.dielectricByName.map (fun d => .material d.1 d.2) = mats
  generalize hrest : ly.nets.flatMap (netCalls t ly)
        ++ [Call.conductor "VSUBS" (substrateRegion t ly) (0 - sub.1 - sub.2) sub.2]
        ++ [.dielectric fox.1 ly.block 0 (gate.z - 0)] ++ cs = rest
  have hall : mats ++ ly.nets.flatMap (netCalls t ly)
        ++ [Call.conductor "VSUBS" (substrateRegion t ly) (0 - sub.1 - sub.2) sub.2]
        ++ [.dielectric fox.1 ly.block 0 (gate.z - 0)] ++ cs = mats ++ rest := by
    rw [← hrest]; simp only [List.append_assoc]
  rw [hall]
  have hrest' : ∀ c ∈ rest, (∃ n l z ht, c = .conductor n l z ht) ∨
      ∃ n l z ht, c = .dielectric n l z ht ∧ ∃ k, Call.material n k ∈ mats := by
    intro c hc
    rw [← hrest] at hc
    simp only [List.mem_append, List.mem_singleton, List.mem_flatMap] at hc
    rcases hc with ((⟨net, _, hc⟩ | rfl) | rfl) | hc
    · exact Or.inl (hcond net c hc)
    · exact Or.inl ⟨_, _, _, _, rfl⟩
    · exact Or.inr ⟨_, _, _, _, rfl, fox.2, by rw [← hmats]; simp⟩
    · obtain ⟨n, l, z, ht, rfl, d, hd, rfl⟩ := dielectrics_only ha hc
      have : d.name ∈ t.dielectricByName.keys := mem_dielectricByName.2 ⟨d, hd, rfl⟩
      obtain ⟨k, hk⟩ := (Dict.mem_keys _ _).1 this
      refine Or.inr ⟨_, _, _, _, rfl, k, ?_⟩
      rw [← hmats]
      exact List.mem_append_right _ (List.mem_map.2 ⟨_, hk, rfl⟩)
  have hmats' : ∀ c ∈ mats, ∃ n k, c = .material n k := by
    intro c hc
    rw [← hmats] at hc
    simp only [List.mem_append, List.mem_singleton, List.mem_map] at hc
    rcases hc with rfl | ⟨d, _, rfl⟩ <;> exact ⟨_, _, rfl⟩
  obtain ⟨b, hb, hm⟩ := build_accepts (P := P) (dbu := ly.dbu) (calls := mats ++ rest) (by
    intro pre n l z ht post e
    rcases List.append_eq_append_iff.1 e with ⟨a, rfl, ha'⟩ | ⟨a, e1, e2⟩
    · have hin : Call.dielectric n l z ht ∈ rest := by rw [ha']; simp
      rcases hrest' _ hin with ⟨_, _, _, _, e⟩ | ⟨n', l', z', ht', e, k, hk⟩
      · simp at e
      · simp only [Call.dielectric.injEq] at e
        obtain ⟨rfl, _⟩ := e
        exact ⟨k, List.mem_append_left _ hk⟩
    · cases a with
      | nil =>
        simp only [List.nil_append] at e2
        simp only [List.append_nil] at e1
        have hin : Call.dielectric n l z ht ∈ rest := by rw [← e2]; simp
        rcases hrest' _ hin with ⟨_, _, _, _, e⟩ | ⟨n', l', z', ht', e, k, hk⟩
        · simp at e
        · simp only [Call.dielectric.injEq] at e
          obtain ⟨rfl, _⟩ := e
          exact ⟨k, by rw [← e1]; exact hk⟩
      | cons x a =>
        simp only [List.cons_append, List.cons.injEq] at e2
        obtain ⟨n', k', hx⟩ := hmats' x (by rw [e1]; simp)
        rw [← e2.1] at hx
        simp at hx)
  refine ⟨b, hb, ?_⟩
  have hlist : (mats ++ rest).filterMap (fun c : Call P => match c with | .material n k => some (n, k) | _ => none)
      = fox :: t.dielectricByName := by
    rw [List.filterMap_append]
    have : rest.filterMap (fun c : Call P => match c with | .material n k => some (n, k) | _ => none) = [] := by
      rw [List.filterMap_eq_nil_iff]
      intro c hc
      rcases hrest' c hc with ⟨_, _, _, _, rfl⟩ | ⟨_, _, _, _, rfl, _⟩ <;> rfl
    rw [this, ← hmats, List.append_nil, List.filterMap_append, List.filterMap_map]
    have e2 : ((fun c : Call P => match c with | .material n k => some (n, k) | _ => none) ∘
        fun d : String × ℚ => Call.material d.1 d.2) = some := rfl
    rw [e2, List.filterMap_some]
    rfl
  intro n k
  rw [hm, hlist]
  rw [get?_ofList_cons _ (nodup_dielectricByName t), ← fieldOxide_iff (x := (n, k)), h1]
  simp

theorem dielectricK_iff (kd : Kind) (k : ℚ) : kd.dielectricK = some k ↔ HasPermittivity kd k := by
  unfold HasPermittivity
  cases kd <;> simp [Kind.dielectricK]

theorem dielectricK_none (kd : Kind) : kd.dielectricK = none ↔ ∀ k, ¬ HasPermittivity kd k := by
  rw [Option.eq_none_iff_forall_not_mem]
  exact forall_congr' fun k => not_congr (dielectricK_iff kd k)

/-- **C58.** The model builder accepts all the calls, and the permittivity it has for a material is the one of the process
stack: of the last listed dielectric of that name that is not filtered out or, if there is none, of the field oxide. -/
theorem materials_last {t : Tech} {ly : Layout P} {fuel : Nat}
    {calls : List (Call P)} (h : buildCalls t ly fuel = some (.ok calls)) :
    ∃ b, Sweep.build ly.dbu calls = .ok b ∧ ∀ n k, b.materials.get? n = some k ↔
      (∃ pre l post, t.layers = pre ++ l :: post ∧ l.name = n ∧ t.included n = true ∧ HasPermittivity l.kind k ∧
        ∀ x ∈ post, x.name = n → ∀ k', ¬ HasPermittivity x.kind k') ∨
      ((∃ pre post, t.layers = pre ++ ⟨n, .fieldOxide k⟩ :: post ∧ ∀ l ∈ pre, ∀ k', l.kind ≠ .fieldOxide k') ∧
        (t.included n = true → ∀ x ∈ t.layers, x.name = n → ∀ k', ¬ HasPermittivity x.kind k')) := by
  obtain ⟨b, h1, h2⟩ := materials_aux h
  refine ⟨b, h1, fun n k => (h2 n k).trans ?_⟩
  have hkey := fun k => get?_dielectricByName (t := t) n k
  simp only [dielectricK_none, dielectricK_iff] at hkey
  refine or_congr (hkey k) (and_congr ?_ ?_)
  · refine exists_congr fun pre => exists_congr fun post => and_congr_right fun _ =>
      forall_congr' fun l => imp_congr_right fun _ => ?_
    cases l.kind <;> simp [Kind.isFieldOxide]
  · constructor
    · intro hnone hi x hx hxn k' hk'
      obtain ⟨pre, l, post, e, ⟨k1, hl, hlk⟩, hpost⟩ := last_split
        (Q := fun l : Layer => ∃ k, l.name = n ∧ HasPermittivity l.kind k) ⟨x, hx, k', hxn, hk'⟩
      have := (hkey k1).2 ⟨pre, l, post, e, hl, hi, hlk, fun y hy hyn k2 hk2 => hpost y hy ⟨k2, hyn, hk2⟩⟩
      rw [hnone] at this
      simp at this
    · intro hall
      rw [Option.eq_none_iff_forall_not_mem]
      intro k' hk'
      obtain ⟨pre, l, post, e, hl, hi, hk, _⟩ := (hkey k').1 hk'
      exact hall hi l (by rw [e]; simp) hl k' hk

/-- **C58.** If dielectrics of one name have one permittivity, the permittivity of a material is the one of the field oxide or
of any dielectric of that name that is not filtered out. -/
theorem materials_exact {t : Tech} (hn : OnePermittivity t) {ly : Layout P} {fuel : Nat}
    {calls : List (Call P)} (h : buildCalls t ly fuel = some (.ok calls)) :
    ∃ b, Sweep.build ly.dbu calls = .ok b ∧ ∀ n k, b.materials.get? n = some k ↔
      (∃ pre post, t.layers = pre ++ ⟨n, .fieldOxide k⟩ :: post ∧ ∀ l ∈ pre, ∀ k', l.kind ≠ .fieldOxide k') ∨
      ∃ l ∈ t.layers, l.name = n ∧ t.included n = true ∧ HasPermittivity l.kind k := by
  obtain ⟨b, h1, h2⟩ := materials_last h
  refine ⟨b, h1, fun n k => (h2 n k).trans ?_⟩
  constructor
  · rintro (⟨pre, l, post, e, hl, hi, hk, _⟩ | ⟨hf, _⟩)
    · exact Or.inr ⟨l, by rw [e]; simp, hl, hi, hk⟩
    · exact Or.inl hf
  · have hlast : ∀ l ∈ t.layers, l.name = n → t.included n = true → HasPermittivity l.kind k →
        ∃ pre l post, t.layers = pre ++ l :: post ∧ l.name = n ∧ t.included n = true ∧ HasPermittivity l.kind k ∧
          ∀ x ∈ post, x.name = n → ∀ k', ¬ HasPermittivity x.kind k' := by
      intro l hl hln hi hk
      obtain ⟨pre, l', post, e, ⟨k1, hl', hlk⟩, hpost⟩ := last_split
        (Q := fun l : Layer => ∃ k, l.name = n ∧ HasPermittivity l.kind k) ⟨l, hl, k, hln, hk⟩
      have : k1 = k := hn.same l' (by rw [e]; simp) l hl _ _ (hl'.trans hln.symm) (by rw [hl']; exact hi) hlk hk
      subst this
      exact ⟨pre, l', post, e, hl', hi, hlk, fun y hy hyn k2 hk2 => hpost y hy ⟨k2, hyn, hk2⟩⟩
    rintro (hf | ⟨l, hl, hln, hi, hk⟩)
    · by_cases hi : t.included n = true
      · by_cases hex : ∃ x ∈ t.layers, x.name = n ∧ ∃ k', HasPermittivity x.kind k'
        · obtain ⟨x, hx, hxn, k', hk'⟩ := hex
          obtain ⟨pre, post, e, _⟩ := hf
          have : k = k' := hn.fieldOxide ⟨n, .fieldOxide k⟩ (by rw [e]; simp) x hx _ _ hxn.symm hi rfl hk'
          subst this
          exact Or.inl (hlast x hx hxn hi hk')
        · exact Or.inr ⟨hf, fun _ x hx hxn k' hk' => hex ⟨x, hx, hxn, k', hk'⟩⟩
      · exact Or.inr ⟨hf, fun h => absurd h hi⟩
    · exact Or.inl (hlast l hl hln hi hk)

/-- Distinct names have one permittivity each. -/
theorem OnePermittivity.of_nodup {t : Tech} (hn : (t.layers.map Layer.name).Nodup) : OnePermittivity t where
  same := by
    intro l₁ h1 l₂ h2 k₁ k₂ e _ hk1 hk2
    have := layer_inj hn h1 h2 e
    subst this
    rw [← dielectricK_iff] at hk1 hk2
    rw [hk1] at hk2
    simpa using hk2
  fieldOxide := by
    intro l₁ h1 l₂ h2 k₁ k₂ e _ hk1 hk2
    have := layer_inj hn h1 h2 e
    subst this
    rw [hk1, ← dielectricK_iff] at hk2
    simp [Kind.dielectricK] at hk2

/-! ### Building succeeds -/

theorem sidewallOf_ok {t : Tech} {n : String}
    (hu : ∀ pre l mid l' post, t.layers = pre ++ l :: mid ++ l' :: post → Wraps t n l → ¬ Wraps t n l') :
    ∃ o, t.sidewallOf n = .ok o := by
  rw [Tech.sidewallOf]
  have hw := fun l' : Layer => (mem_wraps (t := t) (n := n) (l := l'))
  have hsub : (List.filter (fun l : Layer => decide (l.kind.reference? = some n)) t.dielectrics).Sublist t.layers :=
    (List.filter_sublist).trans List.filter_sublist
  generalize List.filter (fun l : Layer => decide (l.kind.reference? = some n)) t.dielectrics = fl at hw hsub
  match fl, hsub, hw with
  | [], _, _ => exact ⟨_, rfl⟩
  | [x], _, _ => exact ⟨_, rfl⟩
  | x :: y :: r, hsub, hw =>
    exfalso
    obtain ⟨p, q, e, hx, hs'⟩ := List.cons_sublist_iff.1 hsub
    obtain ⟨p', q', e', hy, _⟩ := List.cons_sublist_iff.1 hs'
    obtain ⟨a, b, rfl⟩ := List.append_of_mem hx
    obtain ⟨c, d, rfl⟩ := List.append_of_mem hy
    exact hu a x (b ++ c) y (d ++ q') (by rw [e, e']; simp) ((hw x).1 (by simp)) ((hw y).1 (by simp))

/-- **C22.** Building succeeds for every stack with unambiguous layer names that has a substrate, a field oxide and a metal, in
which no layer is wrapped by two dielectrics and wrapping dielectrics have non-negative heights. -/
theorem build_succeeds {t : Tech} (hn : WellNamed t) (ly : Layout P)
    (hs : ∃ l ∈ t.layers, l.kind.isSubstrate) (hf : ∃ l ∈ t.layers, l.kind.isFieldOxide)
    (hm : ∃ l ∈ t.layers, l.kind.isMetal) 
    (hu : ∀ n pre l mid l' post, t.layers = pre ++ l :: mid ++ l' :: post → Wraps t n l → ¬ Wraps t n l')
    (hr : ∀ n l m z th c, Wraps t n l → ⟨m, .metal z th c⟩ ∈ t.layers → 0 ≤ l.kind.rise th) :
    ∃ calls, ∀ fuel, t.layers.length < fuel → buildCalls t ly fuel = some (.ok calls) := by
  obtain ⟨r, hb⟩ := build_terminates_partial t hn ly
  cases r with
  | ok calls => exact ⟨calls, hb⟩
  | error e =>
    exfalso
    have h := hb (t.layers.length + 1) (by omega)
    have hfirst : ∃ c, firstCalls t ly = .ok c := by
      have first : ∀ {Q : Layer → Prop}, (∃ l ∈ t.layers, Q l) →
          ∃ pre l post, t.layers = pre ++ l :: post ∧ Q l ∧ ∀ x ∈ pre, ¬ Q x := by
        intro Q hq
        obtain ⟨pre, l, post, e, hl, hp⟩ := last_split (l := t.layers.reverse) (Q := Q) (by simpa using hq)
        refine ⟨post.reverse, l, pre.reverse, ?_, hl, by simpa using hp⟩
        have := congrArg List.reverse e
        simpa using this
      obtain ⟨p1, ⟨n1, k1⟩, q1, e1, hl1, hp1⟩ := first hs
      obtain ⟨p2, ⟨n2, k2⟩, q2, e2, hl2, hp2⟩ := first hf
      obtain ⟨p3, ⟨n3, k3⟩, q3, e3, hl3, hp3⟩ := first hm
      cases k1 <;> simp only [Kind.isSubstrate] at hl1
      rename_i sh sth
      cases k2 <;> simp only [Kind.isFieldOxide] at hl2
      rename_i fk
      cases k3 <;> simp only [Kind.isMetal] at hl3
      rename_i mz mth mc
      have a1 : t.substrate = .ok (sh, sth) := substrate_iff.2 ⟨p1, n1, q1, e1, hp1⟩
      have a2 : t.fieldOxide = .ok (n2, fk) := fieldOxide_iff.2 ⟨p2, q2, e2, hp2⟩
      have a3 : t.metals.head? = some ⟨n3, mz, mth, mc⟩ := metals_head.2 ⟨p3, q3, e3, hp3⟩
      rw [firstCalls, a1, a2]
      simp only [bind, Except.bind]
      cases hmm : t.metals with
      | nil => rw [hmm] at a3; simp at a3
      | cons g ms => exact ⟨_, rfl⟩
    obtain ⟨c, hc⟩ := hfirst
    rw [buildCalls, hc] at h
    simp only at h
    have key : ∀ ms : List Metal, (∀ m ∈ ms, m ∈ t.metals) → ∀ e,
        allDielectrics t ly (t.layers.length + 1) ms ≠ some (.error e) := by
      intro ms
      induction ms with
      | nil => intro _ e h; simp [allDielectrics] at h
      | cons m ms ih =>
        intro hms e h
        have hmm := hms m List.mem_cons_self
        have ih := ih (fun x hx => hms x (List.mem_cons_of_mem _ hx))
        rw [allDielectrics] at h
        have hmd : ∀ e, metalDielectrics t ly (t.layers.length + 1) m ≠ some (.error e) := by
          intro e h
          have hloop : ∀ fuel a (s : Side P), (∀ e, sideLoop t ly m fuel a s ≠ some (.error e)) := by
            intro fuel
            induction fuel with
            | zero => intro a s e h; simp [sideLoop] at h
            | succ fuel ih =>
              intro a s e h
              rw [sideLoop] at h
              obtain ⟨o, ho⟩ := sidewallOf_ok (hu a)
              rw [ho] at h
              cases o with
              | none => simp at h
              | some l => exact ih _ _ _ h
          rw [metalDielectrics] at h
          cases ho : ly.ofLayer m.name with
          | none =>
            rw [ho] at h
            simp only [simpleCalls, Option.some.injEq] at h
            split at h <;> simp at h
          | some r =>
            rw [ho] at h
            simp only at h
            cases hl : sideLoop t ly m (t.layers.length + 1) m.name { region := r } with
            | none => rw [hl] at h; simp at h
            | some x =>
              cases x with
              | error e' => exact hloop _ _ _ _ hl
              | ok s =>
                rw [hl] at h
                simp only at h
                obtain ⟨ls, hch, _, es⟩ := sideLoop_ok hl
                have sp := side_spec (ly := ly) (m := m) (r := r) hch
                rw [← es] at sp
                have hpos : ¬ s.height < 0 := by
                  rw [sp.height, not_lt]
                  apply List.sum_nonneg
                  intro x hx
                  obtain ⟨l, hl, rfl⟩ := List.mem_map.1 hx
                  obtain ⟨a, hw⟩ := hch.mem l hl
                  exact hr _ _ _ _ _ _ hw (mem_metals.1 hmm)
                have hq : ∃ c, simpleCalls t ly m (some s) = .ok c := by
                  rw [simpleCalls]
                  rcases t.simpleAbove m.name with ⟨_ | d, hh⟩
                  · exact ⟨_, rfl⟩
                  · simp only [if_neg hpos]
                    cases s.noMetal <;> exact ⟨_, rfl⟩
                obtain ⟨c, hq⟩ := hq
                rw [hq] at h
                simp at h
        cases hx : metalDielectrics t ly (t.layers.length + 1) m with
        | none => rw [hx] at h; simp at h
        | some x =>
          cases x with
          | error e' => exact hmd _ hx
          | ok cm =>
            rw [hx] at h
            simp only at h
            cases hy : allDielectrics t ly (t.layers.length + 1) ms with
            | none => rw [hy] at h; simp at h
            | some y =>
              cases y with
              | error e' => exact ih _ hy
              | ok cs => rw [hy] at h; simp at h
    cases hy : allDielectrics t ly (t.layers.length + 1) t.metals with
    | none => rw [hy] at h; simp at h
    | some y =>
      cases y with
      | error e' => exact key _ (fun _ hx => hx) _ hy
      | ok cs => rw [hy] at h; simp at h

/-! ### Examples -/

/-- A stack with two metals, a via, diffusion, a sidewall and a conformal dielectric. -/
def exTech : Tech where
  layers := [⟨"SUB", .substrate 1 1⟩, ⟨"nsdm", .diffusion ⟨"licon", 2⟩⟩, ⟨"fox", .fieldOxide 4⟩,
    ⟨"poly", .metal 1 2 (some ⟨"mcon", 3⟩)⟩, ⟨"spacer", .sidewall 7 0 1 "poly"⟩,
    ⟨"nit", .conformal 8 1 1 2 "spacer"⟩, ⟨"psg", .simple 3⟩, ⟨"met1", .metal 6 1 none⟩, ⟨"air", .simple 1⟩]
  included := fun _ => true

/-- A strip of 40 cells with one poly shape, one contact and one diffusion shape; `sized` grows to both sides. -/
def exLayout : Layout Int where
  dbu := 1
  nets := ["A", "B"]
  ofNet := fun l n =>
    if l = "poly" ∧ n = "A" then some {20, 21} else if l = "mcon" ∧ n = "A" then some {20}
    else if l = "nsdm" ∧ n = "B" then some {5} else none
  ofLayer := fun l => if l = "poly" then some {20, 21} else if l = "met1" then some ∅ else none
  block := Finset.Ico 0 40
  sized := fun d r => r ∪ (Finset.Icc 1 d).biUnion (fun i => r.image (· + i) ∪ r.image (· - i))

/-- The names of the example stack are distinct. -/
theorem ex_nodup : (exTech.layers.map Layer.name).Nodup := by decide

/-- The example stack builds. -/
theorem ex_builds : ∃ calls, ∀ fuel, 9 < fuel → buildCalls exTech exLayout fuel = some (.ok calls) := by
  refine build_succeeds (.of_nodup ex_nodup) exLayout ⟨⟨"SUB", .substrate 1 1⟩, by simp [exTech], trivial⟩
    ⟨⟨"fox", .fieldOxide 4⟩, by simp [exTech], trivial⟩ ⟨⟨"met1", .metal 6 1 none⟩, by simp [exTech], trivial⟩ ?_ ?_
  · intro n pre l mid l' post elay h h'
    have hll : l ≠ l' := by
      have hnd : exTech.layers.Nodup := List.Nodup.of_map _ ex_nodup
      rw [elay, List.append_assoc, List.nodup_append] at hnd
      rintro rfl
      have := hnd.2.1
      rw [List.cons_append, List.nodup_cons] at this
      exact this.1 (by simp)
    have h1 := mem_wraps.2 h
    have h2 := mem_wraps.2 h'
    have e : exTech.dielectrics = [⟨"spacer", .sidewall 7 0 1 "poly"⟩, ⟨"nit", .conformal 8 1 1 2 "spacer"⟩,
      ⟨"psg", .simple 3⟩, ⟨"air", .simple 1⟩] := rfl
    rw [e] at h1 h2
    simp only [List.mem_filter, List.mem_cons, List.not_mem_nil, or_false, decide_eq_true_eq] at h1 h2
    rcases h1 with ⟨rfl | rfl | rfl | rfl, e1⟩ <;> rcases h2 with ⟨rfl | rfl | rfl | rfl, e2⟩ <;>
      simp_all [Kind.reference?]
    all_goals (subst e1; simp at e2)
  · intro n l m z th c hw hm
    have hth : 0 ≤ th := by
      simp only [exTech, List.mem_cons, Layer.mk.injEq, reduceCtorEq, and_false, Kind.metal.injEq, List.not_mem_nil,
        or_false, false_or] at hm
      rcases hm with ⟨_, _, rfl, _⟩ | ⟨_, _, rfl, _⟩ <;> norm_num
    have h1 := mem_wraps.2 hw
    have e : exTech.dielectrics = [⟨"spacer", .sidewall 7 0 1 "poly"⟩, ⟨"nit", .conformal 8 1 1 2 "spacer"⟩,
      ⟨"psg", .simple 3⟩, ⟨"air", .simple 1⟩] := rfl
    rw [e] at h1
    simp only [List.mem_filter, List.mem_cons, List.not_mem_nil, or_false, decide_eq_true_eq] at h1
    rcases h1 with ⟨rfl | rfl | rfl | rfl, e1⟩
    · simpa [Kind.rise] using hth
    · simp only [Kind.rise]; linarith
    · simp [Kind.reference?] at e1
    · simp [Kind.reference?] at e1

theorem ex_sized (d : Int) (r : Finset Int) (p : Int) :
    p ∈ exLayout.sized d r ↔ p ∈ r ∨ ∃ i, 1 ≤ i ∧ i ≤ d ∧ (p - i ∈ r ∨ p + i ∈ r) := by
  simp only [exLayout, Finset.mem_union, Finset.mem_biUnion, Finset.mem_Icc, Finset.mem_image, and_assoc]
  apply or_congr Iff.rfl
  apply exists_congr
  intro i
  apply and_congr Iff.rfl
  apply and_congr Iff.rfl
  constructor
  · rintro (⟨x, hx, rfl⟩ | ⟨x, hx, rfl⟩)
    · left; simpa using hx
    · right; simpa using hx
  · rintro (h | h)
    · exact Or.inl ⟨_, h, by ring⟩
    · exact Or.inr ⟨_, h, by ring⟩

/-- Examples: the spacer wraps the poly shape, the via sits on the poly, the substrate spares the diffusion. -/
example {calls : List (Call Int)} (h : buildCalls exTech exLayout 10 = some (.ok calls)) :
    Drawn 1 calls (.mat "spacer") 2 19 ∧ Drawn 1 calls (.net "A") 4 20 ∧ Drawn 1 calls (.net "VSUBS") (-2) 7 ∧
      ¬ Drawn 1 calls (.net "VSUBS") (-2) 6 := by
  refine ⟨?_, ?_, ?_, ?_⟩
  · refine (dielectrics_exact (.of_nodup ex_nodup) h _ _ _).2 (.wrap (m := "poly") (z := 1) (th := 2) (c := some ⟨"mcon", 3⟩)
      (r := {20, 21}) (ls := []) (l := ⟨"spacer", .sidewall 7 0 1 "poly"⟩) (by simp [exTech]) rfl ?_ ?_ ?_)
    · exact .cons ⟨by simp [exTech], rfl, Or.inl ⟨_, _, _, rfl⟩⟩ .nil
    · rw [grown_snoc, ex_sized]
      exact Or.inr ⟨1, by norm_num, by norm_num [Kind.width, exLayout], Or.inr (by decide)⟩
    · constructor <;> decide +kernel
  · exact (conductors_exact h _ _ _).2 (Or.inl ⟨by decide, "mcon", 1 + 2, 3,
      Level.via (t := exTech) (n := "poly") (z := 1) (th := 2) (c := ⟨"mcon", 3⟩) (by simp [exTech]),
      ⟨{20}, rfl, by decide⟩, by constructor <;> decide +kernel⟩)
  · refine (conductors_exact h _ _ _).2 (Or.inr ⟨rfl, by simp [exLayout], ?_, [], "SUB", 1, 1, _, rfl, by simp,
      by constructor <;> decide +kernel⟩)
    intro net hnet n c r hd ho hr
    simp only [exTech, List.mem_cons, Layer.mk.injEq, reduceCtorEq, and_false, Kind.diffusion.injEq, List.not_mem_nil,
      or_false, false_or] at hd
    obtain ⟨rfl, rfl⟩ := hd
    simp only [exLayout, List.mem_cons, List.not_mem_nil, or_false] at hnet
    rcases hnet with rfl | rfl
    · exact absurd ho (by simp [exLayout])
    · have e : r = {5} := by simpa [exLayout] using ho.symm
      subst e
      rw [ex_sized]
      have : ⌊1 / exLayout.dbu⌋ = 1 := by norm_num [exLayout]
      rw [this]
      simp only [Finset.mem_singleton]
      rintro (h' | ⟨i, h1, h2, h' | h'⟩) <;> omega
  · intro hc
    rcases (conductors_exact h _ _ _).1 hc with ⟨hn, _⟩ | ⟨_, _, hx, _⟩
    · exact absurd hn (by decide)
    · refine hx "B" (by decide) "nsdm" ⟨"licon", 2⟩ {5} (by simp [exTech]) rfl (by decide) ?_
      rw [ex_sized]
      have : ⌊1 / exLayout.dbu⌋ = 1 := by norm_num [exLayout]
      rw [this]
      exact Or.inr ⟨1, le_refl _, le_refl _, Or.inl (by decide)⟩

/-- The example stack meets the hypotheses of `no_gaps`: slab 10 above cell 3 is filled. -/
example {calls : List (Call Int)} (h : buildCalls exTech exLayout 10 = some (.ok calls)) :
    ∃ n, Drawn 1 calls (.mat n) 10 3 := by
  refine no_gaps (t := exTech) (.of_nodup ex_nodup) (ly := exLayout) (by norm_num [exLayout]) ?_ ?_ ?_ h 10 3 (by simp [exLayout])
    (by decide +kernel) ?_
  · intro d r _ x hx
    rw [ex_sized]
    exact Or.inl hx
  · intro l hl
    simp only [exTech, List.mem_cons, List.not_mem_nil, or_false] at hl
    rcases hl with rfl | rfl | rfl | rfl | rfl | rfl | rfl | rfl | rfl <;> norm_num [Kind.width]
  · intro pre l post e hm
    have hl : l ∈ exTech.layers := by rw [e]; simp
    have key : ∀ {a : List Layer} {x : Layer} {b : List Layer}, exTech.layers = a ++ x :: b → x ∉ a := by
      intro a x b e' hx
      have hnd : exTech.layers.Nodup := List.Nodup.of_map _ ex_nodup
      rw [e', List.nodup_append] at hnd
      exact hnd.2.2 x hx x List.mem_cons_self rfl
    have split : ∀ (a : List Layer) (x : Layer) (b : List Layer), exTech.layers = a ++ x :: b → x = l → post = b := by
      rintro a x b e' rfl
      have hd := e.symm.trans e'
      have hi := congrArg (List.idxOf x) hd
      rw [List.idxOf_append_of_notMem (key e), List.idxOf_append_of_notMem (key e')] at hi
      have := List.append_inj hd (by simpa using hi)
      simpa using this.2
    simp only [exTech, List.mem_cons, List.not_mem_nil, or_false] at hl
    rcases hl with h1 | h1 | h1 | h1 | h1 | h1 | h1 | h1 | h1 <;>
      first
      | (rw [h1] at hm; simp [Kind.isMetal] at hm; done)
      | skip
    · have := split [⟨"SUB", .substrate 1 1⟩, ⟨"nsdm", .diffusion ⟨"licon", 2⟩⟩, ⟨"fox", .fieldOxide 4⟩] _ _ rfl h1.symm
      refine ⟨[⟨"spacer", .sidewall 7 0 1 "poly"⟩, ⟨"nit", .conformal 8 1 1 2 "spacer"⟩], ⟨"psg", .simple 3⟩, _, this, ?_,
        Or.inl ⟨trivial, rfl⟩⟩
      intro x hx
      simp only [List.mem_cons, List.not_mem_nil, or_false] at hx
      rcases hx with rfl | rfl <;> simp [Kind.isMetal, Kind.isSimple]
    · have := split [⟨"SUB", .substrate 1 1⟩, ⟨"nsdm", .diffusion ⟨"licon", 2⟩⟩, ⟨"fox", .fieldOxide 4⟩,
        ⟨"poly", .metal 1 2 (some ⟨"mcon", 3⟩)⟩, ⟨"spacer", .sidewall 7 0 1 "poly"⟩,
        ⟨"nit", .conformal 8 1 1 2 "spacer"⟩, ⟨"psg", .simple 3⟩] _ _ rfl h1.symm
      exact ⟨[], ⟨"air", .simple 1⟩, [], this, by simp, Or.inl ⟨trivial, rfl⟩⟩
  · intro pre m z th c post e hp
    have hl : (⟨m, .metal z th c⟩ : Layer) ∈ exTech.layers := by rw [e]; simp
    simp only [exTech, List.mem_cons, Layer.mk.injEq, reduceCtorEq, and_false, Kind.metal.injEq, List.not_mem_nil,
      or_false, false_or] at hl
    rcases hl with ⟨rfl, rfl, rfl, rfl⟩ | ⟨rfl, rfl, rfl, rfl⟩
    · exfalso
      have hm1 : (⟨"met1", .metal 6 1 none⟩ : Layer) ∈ pre ++ ⟨"poly", .metal 1 2 (some ⟨"mcon", 3⟩)⟩ :: post := by
        rw [← e]; simp [exTech]
      rcases List.mem_append.1 hm1 with hx | hx
      · have hpoly : exTech.layers.idxOf ⟨"poly", .metal 1 2 (some ⟨"mcon", 3⟩)⟩ = 3 := by decide +kernel
        have hmet : exTech.layers.idxOf ⟨"met1", .metal 6 1 none⟩ = 7 := by decide +kernel
        rw [e, List.idxOf_append_of_mem hx] at hmet
        rw [e, List.idxOf_append_of_notMem (fun hmem => (metal_split (.of_nodup ex_nodup) e).1 _ hmem rfl)] at hpoly
        have := List.idxOf_lt_length_of_mem hx
        simp at hpoly
        omega
      · rcases List.mem_cons.1 hx with hx | hx
        · simp at hx
        · exact hp _ hx trivial
    · decide +kernel

end Verif.Stack3d
