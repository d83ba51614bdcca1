import Verif.Engine25.Layers
import Verif.Overlap.Props
import Mathlib.Data.Set.Card

/-!
# What the overlap extractor records for a cell, as areas of the layout
-/

namespace Verif.Engine25

open TechInfo (Tech Parasitics OverlapSpec OverlapIs)
open Overlap (Cell Poly Owned Covers netOf)
open Summary (OverlapKey OverlapCap)

/-- Records of a polygon for one net above, split by the layer. -/
theorem split_layers (x : Overlap.Ctx) (hn : x.names.Nodup) (i : Nat) (bot net n : String) (rs : List OverlapCap)
    (h : ∀ r ∈ rs, r.key.layerBot = bot ∧ r.key.netBot = net ∧ ∃ j, i < j ∧ j < x.names.length ∧ r.key.layerTop = x.name j) :
    ((rs.filter fun r => decide (r.key.netTop = n)).map OverlapCap.capValue).sum =
      ∑ j ∈ (Finset.range x.names.length).filter (i < ·),
        ((rs.filter fun r => decide (r.key = ⟨x.name j, n, bot, net⟩)).map OverlapCap.capValue).sum := by
  induction rs with
  | nil => simp
  | cons r rs ih =>
    have ih := ih (fun r hr => h r (by simp [hr]))
    obtain ⟨h1, h2, j, hj1, hj2, h3⟩ := h r (by simp)
    have hone : ∀ k, ((List.filter (fun r => decide (r.key = ⟨x.name k, n, bot, net⟩)) (r :: rs)).map
        OverlapCap.capValue).sum = (if r.key = ⟨x.name k, n, bot, net⟩ then r.capValue else 0) +
        ((rs.filter fun r => decide (r.key = ⟨x.name k, n, bot, net⟩)).map OverlapCap.capValue).sum := by
      intro k
      rw [List.filter_cons]
      by_cases hk : r.key = ⟨x.name k, n, bot, net⟩
      · simp [hk]
      · simp [hk]
    simp only [hone, Finset.sum_add_distrib, ← ih]
    rw [List.filter_cons]
    by_cases hnet : r.key.netTop = n
    · have hsum : ∑ k ∈ (Finset.range x.names.length).filter (i < ·),
          (if r.key = ⟨x.name k, n, bot, net⟩ then r.capValue else 0) = r.capValue := by
        rw [Finset.sum_eq_single j]
        · rw [if_pos]
          obtain ⟨⟨a, b, c, d⟩, _, _, _⟩ := r
          simp only at h1 h2 h3 hnet
          rw [h1, h2, h3, hnet]
        · intro k hk hkj
          rw [if_neg]
          intro he
          rw [he] at h3
          simp only [Finset.mem_filter, Finset.mem_range] at hk
          exact hkj (Overlap.name_inj hn hk.1 hj2 h3)
        · intro hj
          exact absurd (by simp [hj1, hj2]) hj
      rw [hsum]
      simp [hnet]
    · have hsum : ∑ k ∈ (Finset.range x.names.length).filter (i < ·),
          (if r.key = ⟨x.name k, n, bot, net⟩ then r.capValue else 0) = 0 := by
        refine Finset.sum_eq_zero fun k _ => ?_
        rw [if_neg]
        intro he
        rw [he] at hnet
        exact hnet rfl
      rw [hsum]
      simp [hnet]

/-- Cells of disjoint polygons are counted once. -/
theorem sum_cells (P : Cell → Prop) [DecidablePred P] (l : List Poly)
    (hd : l.Pairwise fun p q => Disjoint p.cells q.cells) :
    (l.map fun p => (p.cells.filter P).card).sum = Set.ncard {c | P c ∧ ∃ p ∈ l, c ∈ p.cells} := by
  classical
  have key : ∀ l : List Poly, l.Pairwise (fun p q => Disjoint p.cells q.cells) →
      ∃ s : Finset Cell, (∀ c, c ∈ s ↔ P c ∧ ∃ p ∈ l, c ∈ p.cells) ∧ (l.map fun p => (p.cells.filter P).card).sum = s.card := by
    intro l hd
    induction l with
    | nil => exact ⟨∅, by simp, rfl⟩
    | cons p l ih =>
      rw [List.pairwise_cons] at hd
      obtain ⟨s, h1, h2⟩ := ih hd.2
      refine ⟨p.cells.filter P ∪ s, ?_, ?_⟩
      · intro c
        rw [Finset.mem_union, Finset.mem_filter, h1]
        constructor
        · rintro (⟨h, h'⟩ | ⟨h, q, hq, hc⟩)
          · exact ⟨h', p, by simp, h⟩
          · exact ⟨h, q, by simp [hq], hc⟩
        · rintro ⟨h, q, hq, hc⟩
          rcases List.mem_cons.1 hq with rfl | hq
          · exact Or.inl ⟨hc, h⟩
          · exact Or.inr ⟨h, q, hq, hc⟩
      · rw [List.map_cons, List.sum_cons, h2, Finset.card_union_of_disjoint]
        rw [Finset.disjoint_left]
        intro c hc hcs
        obtain ⟨_, q, hq, hcq⟩ := (h1 c).1 hcs
        exact Finset.disjoint_left.1 (hd.1 q hq) (Finset.mem_filter.1 hc).1 hcq
  obtain ⟨s, h1, h2⟩ := key l hd
  rw [h2, ← Set.ncard_coe_finset s]
  congr 1
  ext c
  simp [h1]

/-- What is assumed of KLayout: the visited polygons cover the same area with the same nets as the shapes, those of one
net do not overlap, and the neighbourhood of a polygon lists visited polygons of the given layer and all of them that
share area with it. -/
structure Faithful (kl : KLayout) : Prop where
  cover : ∀ ps net c, (∃ p ∈ kl.merged ps, p.net = net ∧ c ∈ p.cells) ↔ ∃ p ∈ ps, p.net = net ∧ c ∈ p.cells
  disjoint : ∀ ps, (kl.merged ps).Pairwise fun p q => p.net = q.net → Disjoint p.cells q.cells
  sound : ∀ R i p j l, (kl.nbh R i p).get? j = some l → ∃ L, R[j]? = some L ∧ ∀ q ∈ l, q ∈ L
  complete : ∀ (R : List (List Poly)) (i : Nat) (p : Poly) (j : Nat) (L K : List Poly), R[i]? = some L → p ∈ L →
    R[j]? = some K → ∀ q ∈ K, ¬ Disjoint p.cells q.cells → ∃ l, (kl.nbh R i p).get? j = some l ∧ q ∈ l

/-- Net `net` occupies the cell on the layer: the substrate is a net of its own. -/
def On (t : Tech) (x : Context) (halo : ℤ) (n net : String) (c : Cell) : Prop :=
  (n = "VSUBS" ∧ net = "VSUBS" ∧ InSubstrate x halo c) ∨
  (n ≠ "VSUBS" ∧ ∃ p, PolyOf t x halo n p ∧ p.net = net ∧ c ∈ p.cells)

/-- Shapes of different nets on one layer do not overlap. -/
def NoShorts (t : Tech) (x : Context) (halo : ℤ) : Prop :=
  ∀ n p q, PolyOf t x halo n p → PolyOf t x halo n q → ∀ c, c ∈ p.cells → c ∈ q.cells → p.net = q.net

/-- On cell `c`, net `b` of layer number `i` faces net `a` of the higher layer number `j`: no layer in between has another
net than `b` there. -/
def Faces (t : Tech) (x : Context) (halo : ℤ) (names : List String) (i j : Nat) (a b : String) (c : Cell) : Prop :=
  On t x halo (names.getD i "") b c ∧ On t x halo (names.getD j "") a c ∧
    ∀ k, i < k → k < j → ∀ n, On t x halo (names.getD k "") n c → n = b

/-! ### Proofs -/

theorem keys_get {d : Dict String (List Poly)} (hn : d.keys.Nodup) {i : Nat} (hi : i < d.keys.length) :
    ∃ ps, d.values[i]? = some ps ∧ d.get? (d.keys.getD i "") = some ps := by
  have hi' : i < List.length d := by simpa [Dict.keys] using hi
  refine ⟨(d[i]'hi').2, ?_, ?_⟩
  · simp [Dict.values, hi']
  · refine Dict.get?_of_mem hn ?_
    have : d.keys.getD i "" = (d[i]'hi').1 := by
      simp [List.getD_eq_getElem?_getD, Dict.keys, hi']
    rw [this]
    exact List.getElem_mem hi'

theorem stack_nonsub {t : Tech} {x : Context} {names : List String} (hs : IsStack t x names) {j : Nat} (h0 : 0 < j)
    (hj : j < names.length) : names.getD j "" ≠ "VSUBS" := by
  intro h
  have hhead := hs.head
  cases hnames : names with
  | nil => rw [hnames] at hj; simp at hj
  | cons a l =>
    rw [hnames] at hhead h hj
    simp only [List.head?_cons, Option.some.injEq] at hhead
    subst hhead
    have hnd := hs.nodup
    rw [hnames, List.nodup_cons] at hnd
    obtain ⟨k, rfl⟩ : ∃ k, j = k + 1 := ⟨j - 1, by omega⟩
    have hk : k < l.length := by simpa using hj
    rw [List.getD_cons_succ, List.getD_eq_getElem?_getD, List.getElem?_eq_getElem hk, Option.getD_some] at h
    exact hnd.1 (h ▸ List.getElem_mem _)

/-- The setting of the proofs below. -/
structure Setting (kl : KLayout) (t : Tech) (x : Context) (halo : ℤ) (d : Dict String (List Poly)) : Prop where
  faithful : Faithful kl
  ok : layerRegions t x halo = .ok d
  noshort : NoShorts t x halo
  noSub : ∀ l ∈ t.stack, IsMetal l → ¬ CanonicalIs t l.name "VSUBS"

variable {kl : KLayout} {t : Tech} {x : Context} {halo : ℤ} {d : Dict String (List Poly)}

/-- The regions that are visited. -/
def Setting.regions (_ : Setting kl t x halo d) : List (List Poly) := d.values.map kl.merged

theorem Setting.stack (S : Setting kl t x halo d) : IsStack t x d.keys := (layers_exact _ _ _ _ S.ok).1

theorem Setting.region (S : Setting kl t x halo d) {i : Nat} (hi : i < d.keys.length) :
    ∃ ps, S.regions[i]? = some (kl.merged ps) ∧ ∀ p, p ∈ ps ↔ PolyOf t x halo (d.keys.getD i "") p := by
  obtain ⟨ps, h1, h2⟩ := keys_get S.stack.nodup hi
  exact ⟨ps, by rw [Setting.regions, List.getElem?_map, h1]; rfl, (layers_exact _ _ _ _ S.ok).2 _ _ h2⟩

theorem Setting.sub_net (S : Setting kl t x halo d) {p : Poly} (h : PolyOf t x halo "VSUBS" p) :
    p.net = "" ∧ ∀ c, c ∈ p.cells ↔ InSubstrate x halo c := by
  rcases h with ⟨_, h1, h2⟩ | ⟨l, hl, rs, hg, _⟩
  · exact ⟨h1, h2⟩
  · exact absurd hg.2.1 (S.noSub l hl hg.1)

/-- Occupation in terms of the visited polygons. -/
theorem Setting.on_iff (S : Setting kl t x halo d) {i : Nat} (hi : i < d.keys.length) {L : List Poly}
    (hL : S.regions[i]? = some L) (par : Parasitics) (net : String) (c : Cell) :
    On t x halo (d.keys.getD i "") net c ↔ ∃ p ∈ L, netOf ⟨d.keys, x.dbu, par⟩ i p = net ∧ c ∈ p.cells := by
  obtain ⟨ps, h1, h2⟩ := S.region hi
  rw [h1] at hL
  obtain rfl := Option.some.inj hL
  have hcov := S.faithful.cover ps
  unfold On netOf Overlap.Ctx.name
  simp only
  by_cases hv : d.keys.getD i "" = "VSUBS"
  · rw [hv] at h2 ⊢
    simp only [true_and, ne_eq, not_true, false_and, or_false, if_pos]
    constructor
    · rintro ⟨rfl, hc⟩
      have hpo : PolyOf t x halo "VSUBS" (substratePoly x halo) := Or.inl ⟨rfl, rfl, mem_substratePoly x halo⟩
      obtain ⟨p, hp, _, hc'⟩ := (hcov "" c).2 ⟨_, (h2 _).2 hpo, rfl, (mem_substratePoly x halo c).2 hc⟩
      exact ⟨p, hp, rfl, hc'⟩
    · rintro ⟨p, hp, rfl, hc⟩
      obtain ⟨q, hq, _, hc'⟩ := (hcov p.net c).1 ⟨p, hp, rfl, hc⟩
      exact ⟨rfl, ((S.sub_net ((h2 q).1 hq)).2 c).1 hc'⟩
  · simp only [hv, false_and, false_or, ne_eq, not_false_eq_true, true_and, if_neg]
    rw [hcov net c]
    constructor
    · rintro ⟨p, hp, h⟩; exact ⟨p, (h2 p).2 hp, h⟩
    · rintro ⟨p, hp, h⟩; exact ⟨p, (h2 p).1 hp, h⟩

/-- Visited polygons of one layer that share a cell have the same net. -/
theorem Setting.same_net (S : Setting kl t x halo d) {i : Nat} (hi : i < d.keys.length) {L : List Poly}
    (hL : S.regions[i]? = some L) {p q : Poly} (hp : p ∈ L) (hq : q ∈ L) {c : Cell} (hpc : c ∈ p.cells)
    (hqc : c ∈ q.cells) : p.net = q.net := by
  obtain ⟨ps, h1, h2⟩ := S.region hi
  rw [h1] at hL
  obtain rfl := Option.some.inj hL
  obtain ⟨p', hp', hpn, hpc'⟩ := (S.faithful.cover ps p.net c).1 ⟨p, hp, rfl, hpc⟩
  obtain ⟨q', hq', hqn, hqc'⟩ := (S.faithful.cover ps q.net c).1 ⟨q, hq, rfl, hqc⟩
  rw [← hpn, ← hqn]
  exact S.noshort _ _ _ ((h2 _).1 hp') ((h2 _).1 hq') c hpc' hqc'

/-- Visited polygons of one layer do not overlap. -/
theorem Setting.disjoint (S : Setting kl t x halo d) {i : Nat} (hi : i < d.keys.length) {L : List Poly}
    (hL : S.regions[i]? = some L) : L.Pairwise fun p q => Disjoint p.cells q.cells := by
  have hd : L.Pairwise fun p q => p.net = q.net → Disjoint p.cells q.cells := by
    obtain ⟨ps, h1, _⟩ := S.region hi
    rw [h1] at hL
    obtain rfl := Option.some.inj hL
    exact S.faithful.disjoint ps
  refine List.Pairwise.imp_of_mem ?_ hd
  intro p q hp hq h
  by_contra hnd
  rw [Finset.not_disjoint_iff] at hnd
  obtain ⟨c, hc1, hc2⟩ := hnd
  have := h (S.same_net hi hL hp hq hc1 hc2)
  exact Finset.disjoint_left.1 this hc1 hc2

theorem Setting.covers_iff (S : Setting kl t x halo d) {i k : Nat} (hik : i < k)
    (hk : k < d.keys.length) {L : List Poly} (hL : S.regions[i]? = some L) {p : Poly} (hp : p ∈ L) {c : Cell}
    (hc : c ∈ p.cells) (b : String) :
    Covers (kl.nbh S.regions i p) b c k ↔ ∃ n, On t x halo (d.keys.getD k "") n c ∧ n ≠ b := by
  have hnk : d.keys.getD k "" ≠ "VSUBS" := stack_nonsub S.stack (by omega) hk
  obtain ⟨ps, h1, h2⟩ := S.region hk
  have hon := fun n => S.on_iff hk h1 {} n c
  have hnet : ∀ q, netOf ⟨d.keys, x.dbu, {}⟩ k q = q.net := by
    intro q; unfold netOf Overlap.Ctx.name; rw [if_neg hnk]
  simp only [hnet] at hon
  constructor
  · rintro ⟨l, hl, q, hq, hqc, hne⟩
    obtain ⟨K, hK, hsub⟩ := S.faithful.sound _ _ _ _ _ hl
    rw [h1] at hK
    obtain rfl := Option.some.inj hK
    exact ⟨q.net, (hon _).2 ⟨q, hsub q hq, rfl, hqc⟩, hne⟩
  · rintro ⟨n, h, hne⟩
    obtain ⟨q, hq, rfl, hqc⟩ := (hon n).1 h
    obtain ⟨l, hl, hql⟩ := S.faithful.complete _ i p k _ _ hL hp h1 q hq
      (Finset.not_disjoint_iff.2 ⟨c, hc, hqc⟩)
    exact ⟨l, hl, q, hql, hqc, hne⟩

theorem Setting.owned_iff (S : Setting kl t x halo d) (par : Parasitics) {i j : Nat} (hij : i < j)
    (hj : j < d.keys.length) {L : List Poly} (hL : S.regions[i]? = some L) {p : Poly} (hp : p ∈ L) {c : Cell}
    (hc : c ∈ p.cells) (a b : String) (hab : a ≠ b) :
    Owned ⟨d.keys, x.dbu, par⟩ (kl.nbh S.regions i p) i b c j a ↔
      On t x halo (d.keys.getD j "") a c ∧ ∀ k, i < k → k < j → ∀ n, On t x halo (d.keys.getD k "") n c → n = b := by
  have hi : i < d.keys.length := by omega
  have hnj : d.keys.getD j "" ≠ "VSUBS" := stack_nonsub S.stack (by omega) hj
  obtain ⟨ps, h1, h2⟩ := S.region hj
  have hon := fun n => S.on_iff hj h1 {} n c
  have hnet : ∀ q, netOf ⟨d.keys, x.dbu, {}⟩ j q = q.net := by
    intro q; unfold netOf Overlap.Ctx.name; rw [if_neg hnj]
  simp only [hnet] at hon
  have hbetween : (∀ k, i < k → k < j → ¬ Covers (kl.nbh S.regions i p) b c k) ↔
      ∀ k, i < k → k < j → ∀ n, On t x halo (d.keys.getD k "") n c → n = b := by
    refine forall_congr' fun k => forall_congr' fun hk1 => forall_congr' fun hk2 => ?_
    rw [S.covers_iff hk1 (by omega) hL hp hc b]
    simp only [not_exists, not_and, not_not]
  unfold Owned
  rw [hbetween]
  constructor
  · rintro ⟨_, _, h3, l₁, q, l₂, hl, hqc, rfl, _, _⟩
    refine ⟨?_, h3⟩
    obtain ⟨K, hK, hsub⟩ := S.faithful.sound _ _ _ _ _ hl
    rw [h1] at hK
    obtain rfl := Option.some.inj hK
    exact (hon _).2 ⟨q, hsub q (by simp), rfl, hqc⟩
  · rintro ⟨ha, h3⟩
    refine ⟨hij, hj, h3, ?_⟩
    obtain ⟨q, hq, hqa, hqc⟩ := (hon a).1 ha
    obtain ⟨l, hl, hql⟩ := S.faithful.complete _ i p j _ _ hL hp h1 q hq (Finset.not_disjoint_iff.2 ⟨c, hc, hqc⟩)
    obtain ⟨K, hK, hsub⟩ := S.faithful.sound _ _ _ _ _ hl
    rw [h1] at hK
    obtain rfl := Option.some.inj hK
    have hfind : ∃ q', l.find? (fun q => decide (c ∈ q.cells ∧ q.net ≠ b)) = some q' := by
      rw [← Option.isSome_iff_exists, List.find?_isSome]
      exact ⟨q, hql, by simp [hqc, hqa, hab]⟩
    obtain ⟨q', hq'⟩ := hfind
    rw [List.find?_eq_some_iff_append] at hq'
    obtain ⟨hp1, l₁, l₂, rfl, hl1⟩ := hq'
    simp only [decide_eq_true_eq] at hp1
    refine ⟨l₁, q', l₂, hl, hp1.1, ?_, hab, ?_⟩
    · rw [← hqa]
      exact S.same_net hj h1 (hsub q' (by simp)) hq hp1.1 hqc
    · intro q'' hq'' hc''
      have := hl1 q'' hq''
      simp only [Bool.not_eq_true', decide_eq_false_iff_not, not_and, not_not] at this
      exact this hc''

open Classical in
/-- The polygons of net `b` of layer `i` together count every cell that faces net `a` on layer `j` once. -/
theorem Setting.area (S : Setting kl t x halo d) (par : Parasitics) {i j : Nat} (hij : i < j)
    (hj : j < d.keys.length) {L : List Poly} (hL : S.regions[i]? = some L) (a b : String) (hab : a ≠ b) :
    ((L.filter fun p => decide (netOf ⟨d.keys, x.dbu, par⟩ i p = b)).map fun p =>
      (p.cells.filter fun c => Owned ⟨d.keys, x.dbu, par⟩ (kl.nbh S.regions i p) i b c j a).card).sum =
      Set.ncard {c | Faces t x halo d.keys i j a b c} := by
  have hi : i < d.keys.length := by omega
  have hcongr : ∀ p ∈ L.filter (fun p => decide (netOf ⟨d.keys, x.dbu, par⟩ i p = b)),
      (p.cells.filter fun c => Owned ⟨d.keys, x.dbu, par⟩ (kl.nbh S.regions i p) i b c j a).card =
      (p.cells.filter fun c => On t x halo (d.keys.getD j "") a c ∧
        ∀ k, i < k → k < j → ∀ n, On t x halo (d.keys.getD k "") n c → n = b).card := by
    intro p hp
    congr 1
    refine Finset.filter_congr fun c hc => ?_
    exact S.owned_iff par hij hj hL (List.mem_filter.1 hp).1 hc a b hab
  rw [List.map_congr_left hcongr, sum_cells]
  · congr 1
    ext c
    simp only [Set.mem_ofPred_eq, Faces, S.on_iff hi hL par b c, List.mem_filter, decide_eq_true_eq]
    constructor
    · rintro ⟨⟨h1, h2⟩, p, ⟨hp, hn⟩, hc⟩; exact ⟨⟨p, hp, hn, hc⟩, h1, h2⟩
    · rintro ⟨⟨p, hp, hn, hc⟩, h1, h2⟩; exact ⟨⟨h1, h2⟩, p, ⟨hp, hn⟩, hc⟩
  · exact (S.disjoint hi hL).filter _

end Verif.Engine25
