import Verif.Engine25.Moves

/-!
# Capacitances depend only on what is near (C93)
-/

namespace Verif.Engine25

open TechInfo (Tech StackLayer IsLast SideOverlapIs)
open Overlap (Cell Poly)
open Summary (SamePair RNetwork)
open Fringe (countsAs law)
open PexMode (Mode)

/-! ### Specification -/

/-- The cell lies within `depth` cells, in both directions, of a shape of net `a` or `b` on any layer. -/
def Near (t : Tech) (x : Context) (halo depth : ℤ) (a b : String) (c : Cell) : Prop :=
  ∃ n p c0, PolyOf t x halo n p ∧ (p.net = a ∨ p.net = b) ∧ c0 ∈ p.cells ∧ |c.1 - c0.1| ≤ depth ∧ |c.2 - c0.2| ≤ depth

/-- The layouts have the same layers, the same shapes of the nets `a` and `b`, and the same nets near these shapes. -/
structure SameNear (t : Tech) (x x' : Context) (halo depth : ℤ) (a b : String) : Prop where
  dbu : x'.dbu = x.dbu
  stack : ∀ names, IsStack t x' names ↔ IsStack t x names
  own : ∀ n p, p.net = a ∨ p.net = b → (PolyOf t x' halo n p ↔ PolyOf t x halo n p)
  near : ∀ n net c, Near t x halo depth a b c → (On t x' halo n net c ↔ On t x halo n net c)

/-- Polygons are merged net by net. -/
def MergesPerNet (kl : KLayout) : Prop :=
  ∀ ps ps' net, (∀ p, p.net = net → (p ∈ ps' ↔ p ∈ ps)) → ∀ p, p.net = net → (p ∈ kl.merged ps' ↔ p ∈ kl.merged ps)

/-! ### Proofs -/

theorem mem_regions {kl : KLayout} {t : Tech} {x : Context} {halo : ℤ} {names : List String} {R : List (List Poly)}
    (hkl : Faithful kl) (hR : Regions kl t x halo names R) {i : Nat} (hi : i < names.length) (n : String) (c : Cell) :
    (∃ q ∈ R.getD i [], q.net = n ∧ c ∈ q.cells) ↔ ∃ p, PolyOf t x halo (names.getD i "") p ∧ p.net = n ∧ c ∈ p.cells := by
  obtain ⟨ps, e, h⟩ := hR.2 i hi
  rw [List.getD_eq_getElem?_getD, e, Option.getD_some, hkl.cover]
  simp only [h]

variable {kl : KLayout} {t : Tech} {x x' : Context} {halo depth : ℤ} {a b : String}

/-- Near the shapes, the same polygons up to their outline. -/
theorem SameNear.cover (h : SameNear t x x' halo depth a b)
    (hsub : ∀ l ∈ t.stack, IsMetal l → ¬ CanonicalIs t l.name "VSUBS") {c : Cell} (hc : Near t x halo depth a b c)
    (n net : String) : (∃ p, PolyOf t x' halo n p ∧ p.net = net ∧ c ∈ p.cells) ↔
      ∃ p, PolyOf t x halo n p ∧ p.net = net ∧ c ∈ p.cells := by
  by_cases hn : n = "VSUBS"
  · subst hn
    have key : ∀ y : Context, (∃ p, PolyOf t y halo "VSUBS" p ∧ p.net = net ∧ c ∈ p.cells) ↔
        net = "" ∧ On t y halo "VSUBS" "VSUBS" c := by
      intro y
      constructor
      · rintro ⟨p, ⟨_, h2, h3⟩ | ⟨l, hl, rs, hg, _⟩, rfl, hc⟩
        · exact ⟨h2, Or.inl ⟨rfl, rfl, (h3 c).1 hc⟩⟩
        · exact absurd hg.2.1 (hsub l hl hg.1)
      · rintro ⟨rfl, ⟨_, _, h3⟩ | ⟨h3, _⟩⟩
        · refine ⟨substratePoly y halo, Or.inl ⟨rfl, rfl, mem_substratePoly y halo⟩, rfl, (mem_substratePoly y halo c).2 h3⟩
        · exact absurd rfl h3
    rw [key, key, h.near _ _ c hc]
  · have e := h.near n net c hc
    unfold On at e
    simpa [hn] using e

theorem SameNear.mem (h : SameNear t x x' halo depth a b) (hm : MergesPerNet kl) {names : List String}
    {R R' : List (List Poly)} (hR : Regions kl t x halo names R) (hR' : Regions kl t x' halo names R') {i : Nat}
    (hi : i < names.length) {p : Poly} (hp : p.net = a ∨ p.net = b) : p ∈ R'.getD i [] ↔ p ∈ R.getD i [] := by
  obtain ⟨ps, e, k⟩ := hR.2 i hi
  obtain ⟨ps', e', k'⟩ := hR'.2 i hi
  rw [List.getD_eq_getElem?_getD, List.getD_eq_getElem?_getD, e, e']
  simp only [Option.getD_some]
  refine hm ps ps' p.net (fun q hq => ?_) p rfl
  rw [k, k', h.own _ _ (by rw [hq]; exact hp)]

/-- What is in front of an edge of net `a` or `b` is near. -/
theorem near_side (hkl : Faithful kl) {names : List String} {R : List (List Poly)} (hR : Regions kl t x halo names R) {i : Nat}
    (hi : i < names.length) {p : Poly} (hp : p ∈ R.getD i []) (hab : p.net = a ∨ p.net = b) {s : Side} (hs : IsSide p.cells s)
    {u w : ℤ} (hu1 : 1 ≤ u) (hu2 : u < s.len - 1) (hw1 : 1 ≤ w) (hw2 : w < depth) : Near t x halo depth a b (s.cell u w) := by
  obtain ⟨q, hq, hn, hc⟩ := (mem_regions hkl hR hi p.net (s.cell u (-1))).1 ⟨p, hp, rfl, (hs.2.1 u (by omega) (by omega)).1⟩
  refine ⟨_, q, _, hq, by rw [hn]; exact hab, hc, ?_, ?_⟩ <;>
  · rcases s with ⟨sx, sy, d, l⟩
    rw [abs_le]
    cases d <;> simp only [Side.cell] <;> omega

variable {names : List String} {R R' : List (List Poly)}

theorem SameNear.covers (h : SameNear t x x' halo depth a b) (hkl : Faithful kl)
    (hsub : ∀ l ∈ t.stack, IsMetal l → ¬ CanonicalIs t l.name "VSUBS")
    (hR : Regions kl t x halo names R) (hR' : Regions kl t x' halo names R') {i : Nat} (hi : i < names.length) {c : Cell}
    (hc : Near t x halo depth a b c) (n : String) :
    (∃ q ∈ R'.getD i [], q.net = n ∧ c ∈ q.cells) ↔ ∃ q ∈ R.getD i [], q.net = n ∧ c ∈ q.cells := by
  rw [mem_regions hkl hR hi, mem_regions hkl hR' hi, h.cover hsub hc]

theorem SameNear.free (h : SameNear t x x' halo depth a b) (hkl : Faithful kl)
    (hsub : ∀ l ∈ t.stack, IsMetal l → ¬ CanonicalIs t l.name "VSUBS")
    (hR : Regions kl t x halo names R) (hR' : Regions kl t x' halo names R') {i : Nat} (hi : i < names.length) {c : Cell}
    (hc : Near t x halo depth a b c) : (∀ q ∈ R'.getD i [], c ∉ q.cells) ↔ ∀ q ∈ R.getD i [], c ∉ q.cells := by
  have key := h.covers hkl hsub hR hR' hi hc
  constructor
  · intro h1 q hq hcell
    obtain ⟨q', hq', _, hc'⟩ := (key q.net).2 ⟨q, hq, rfl, hcell⟩
    exact h1 q' hq' hc'
  · intro h1 q hq hcell
    obtain ⟨q', hq', _, hc'⟩ := (key q.net).1 ⟨q, hq, rfl, hcell⟩
    exact h1 q' hq' hc'

theorem SameNear.freeOther (h : SameNear t x x' halo depth a b) (hkl : Faithful kl) (hm : MergesPerNet kl)
    (hsub : ∀ l ∈ t.stack, IsMetal l → ¬ CanonicalIs t l.name "VSUBS")
    (hR : Regions kl t x halo names R) (hR' : Regions kl t x' halo names R') {i : Nat} (hi : i < names.length) {c : Cell}
    (hc : Near t x halo depth a b c) {p : Poly} (hp : p.net = a ∨ p.net = b) :
    (∀ q ∈ R'.getD i [], q ≠ p → c ∉ q.cells) ↔ ∀ q ∈ R.getD i [], q ≠ p → c ∉ q.cells := by
  have key := h.covers hkl hsub hR hR' hi hc
  constructor
  · intro h1 q hq hqp hcell
    by_cases hn : q.net = a ∨ q.net = b
    · exact h1 q ((h.mem hm hR hR' hi hn).2 hq) hqp hcell
    · obtain ⟨q', hq', hn', hc'⟩ := (key q.net).2 ⟨q, hq, rfl, hcell⟩
      exact h1 q' hq' (fun he => hn (by rw [← hn', he]; exact hp)) hc'
  · intro h1 q hq hqp hcell
    by_cases hn : q.net = a ∨ q.net = b
    · exact h1 q ((h.mem hm hR hR' hi hn).1 hq) hqp hcell
    · obtain ⟨q', hq', hn', hc'⟩ := (key q.net).1 ⟨q, hq, rfl, hcell⟩
      exact h1 q' hq' (fun he => hn (by rw [← hn', he]; exact hp)) hc'

theorem SameNear.faced (h : SameNear t x x' halo depth a b) (hkl : Faithful kl) (hm : MergesPerNet kl)
    (hsub : ∀ l ∈ t.stack, IsMetal l → ¬ CanonicalIs t l.name "VSUBS")
    (hR : Regions kl t x halo names R) (hR' : Regions kl t x' halo names R') {i : Nat} (hi : i < names.length)
    {p : Poly} (hp : p ∈ R.getD i []) (hab : p.net = a ∨ p.net = b) {s : Side} (hs : IsSide p.cells s) {u d : ℤ}
    (hu1 : 1 ≤ u) (hu2 : u < s.len - 1) (hd1 : 1 ≤ d) (hd2 : d < depth) {n : String} (hne : p.net ≠ n) :
    FacedBy R' i p s u d n ↔ FacedBy R i p s u d n := by
  have near : ∀ w, 1 ≤ w → w < depth → Near t x halo depth a b (s.cell u w) := fun w h1 h2 =>
    near_side hkl hR hi hp hab hs hu1 hu2 h1 h2
  have e1 : ∀ S : List (List Poly), (∃ q ∈ S.getD i [], q ≠ p ∧ q.net = n ∧ s.cell u d ∈ q.cells) ↔
      ∃ q ∈ S.getD i [], q.net = n ∧ s.cell u d ∈ q.cells := by
    intro S
    constructor
    · rintro ⟨q, h1, _, h2⟩; exact ⟨q, h1, h2⟩
    · rintro ⟨q, h1, h2, h3⟩; exact ⟨q, h1, fun he => hne (by rw [← he, h2]), h2, h3⟩
  unfold FacedBy
  rw [e1, e1, h.covers hkl hsub hR hR' hi (near d hd1 hd2)]
  refine and_congr Iff.rfl (forall_congr' fun w => forall_congr' fun w1 => forall_congr' fun w2 => ?_)
  exact h.freeOther hkl hm hsub hR hR' hi (near w w1 (by omega)) hab

theorem SameNear.seen (h : SameNear t x x' halo depth a b) (hkl : Faithful kl)
    (hsub : ∀ l ∈ t.stack, IsMetal l → ¬ CanonicalIs t l.name "VSUBS")
    (hR : Regions kl t x halo names R) (hR' : Regions kl t x' halo names R') {i j : Nat} (hi : i < names.length)
    (hj : j < names.length)
    {p : Poly} (hp : p ∈ R.getD i []) (hab : p.net = a ∨ p.net = b) {s : Side} (hs : IsSide p.cells s) {u w : ℤ}
    (hu1 : 1 ≤ u) (hu2 : u < s.len - 1) (hw1 : 1 ≤ w) (hw2 : w < depth) (n : String) :
    SeenFrom R' i s u w j n ↔ SeenFrom R i s u w j n := by
  have near : ∀ w, 1 ≤ w → w < depth → Near t x halo depth a b (s.cell u w) := fun w h1 h2 =>
    near_side hkl hR hi hp hab hs hu1 hu2 h1 h2
  unfold SeenFrom
  rw [h.covers hkl hsub hR hR' hj (near w hw1 hw2)]
  refine and_congr Iff.rfl (and_congr ?_ ?_)
  · refine forall_congr' fun w' => forall_congr' fun w1 => forall_congr' fun w2 => ?_
    exact h.free hkl hsub hR hR' hi (near w' w1 (by omega))
  · refine forall_congr' fun k => forall_congr' fun hk => ?_
    exact h.free hkl hsub hR hR' (by omega) (near w hw1 hw2)

theorem SameNear.sides (h : SameNear t x x' halo depth a b) (hm : MergesPerNet kl)
    (hR : Regions kl t x halo names R) (hR' : Regions kl t x' halo names R') {i : Nat} (hi : i < names.length)
    {L L' : List (Poly × Side)} (hL : AllSides (R.getD i []) L) (hL' : AllSides (R'.getD i []) L') :
    (L'.filter fun ps => decide (ps.1.net = a ∨ ps.1.net = b)).Perm (L.filter fun ps => decide (ps.1.net = a ∨ ps.1.net = b)) := by
  rw [List.perm_ext_iff_of_nodup (hL'.nodup.filter _) (hL.nodup.filter _)]
  rintro ⟨p, s⟩
  simp only [List.mem_filter, decide_eq_true_eq, hL.mem, hL'.mem]
  constructor
  · rintro ⟨⟨h1, h2⟩, h3⟩; exact ⟨⟨(h.mem hm hR hR' hi h3).1 h1, h2⟩, h3⟩
  · rintro ⟨⟨h1, h2⟩, h3⟩; exact ⟨⟨(h.mem hm hR hR' hi h3).2 h1, h2⟩, h3⟩

/-- Sums over the edges in which only the edges of two nets count. -/
theorem sum_two_nets {A : Type} [AddCommMonoid A] {L L' : List (Poly × Side)} {f f' : Poly × Side → A}
    (hp : (L'.filter fun ps => decide (ps.1.net = a ∨ ps.1.net = b)).Perm (L.filter fun ps => decide (ps.1.net = a ∨ ps.1.net = b)))
    (h0 : ∀ ps, ¬ (ps.1.net = a ∨ ps.1.net = b) → f ps = 0) (h0' : ∀ ps, ¬ (ps.1.net = a ∨ ps.1.net = b) → f' ps = 0)
    (he : ∀ ps ∈ L, (ps.1.net = a ∨ ps.1.net = b) → f' ps = f ps) : (L'.map f').sum = (L.map f).sum := by
  have key : ∀ (l : List (Poly × Side)) (g : Poly × Side → A), (∀ ps, ¬ (ps.1.net = a ∨ ps.1.net = b) → g ps = 0) →
      (l.map g).sum = ((l.filter fun ps => decide (ps.1.net = a ∨ ps.1.net = b)).map g).sum := by
    intro l g hg
    rw [sum_filter_map]
    refine congrArg List.sum (List.map_congr_left fun ps _ => ?_)
    split
    · rfl
    · rename_i h; exact hg ps h
  rw [key L f h0, key L' f' h0', (hp.map f').sum_eq]
  refine congrArg List.sum (List.map_congr_left fun ps hps => ?_)
  rw [List.mem_filter, decide_eq_true_eq] at hps
  exact he ps hps.1 hps.2

theorem SameNear.wall (h : SameNear t x x' halo depth a b) (hkl : Faithful kl) (hm : MergesPerNet kl)
    (hsub : ∀ l ∈ t.stack, IsMetal l → ¬ CanonicalIs t l.name "VSUBS") (hne : a ≠ b)
    (hR : Regions kl t x halo names R) (hR' : Regions kl t x' halo names R') (dbu : ℚ)
    (C off : String → ℚ) {sides sides' : Nat → List (Poly × Side)} (hs : ∀ i < names.length, AllSides (R.getD i []) (sides i))
    (hs' : ∀ i < names.length, AllSides (R'.getD i []) (sides' i)) :
    wallTotal R' names dbu depth C off sides' a b = wallTotal R names dbu depth C off sides a b := by
  classical
  unfold wallTotal
  refine Finset.sum_congr rfl fun i hi => ?_
  rw [Finset.mem_range] at hi
  have zero : ∀ (S : List (List Poly)) (ps : Poly × Side), ¬ (ps.1.net = a ∨ ps.1.net = b) →
      (∑ u ∈ Finset.Ico 1 (ps.2.len - 1), ∑ d ∈ Finset.Ico 1 depth,
        if ∃ n, FacedBy S i ps.1 ps.2 u d n ∧ SamePair ps.1.net n a b then
          dbu * C (names.getD i "") / (d * dbu + off (names.getD i "")) / 2 / 1000 else 0) = 0 := by
    intro S ps hn
    refine Finset.sum_eq_zero fun u _ => Finset.sum_eq_zero fun d _ => if_neg ?_
    rintro ⟨n, _, ⟨h1, _⟩ | ⟨h1, _⟩⟩
    · exact hn (Or.inl h1)
    · exact hn (Or.inr h1)
  refine sum_two_nets (h.sides hm hR hR' hi (hs i hi) (hs' i hi)) (zero R) (zero R') fun ps hps hn => ?_
  refine Finset.sum_congr rfl fun u hu => Finset.sum_congr rfl fun d hd => ?_
  rw [Finset.mem_Ico] at hu hd
  obtain ⟨k1, k2⟩ := ((hs i hi).mem _ _).1 hps
  have e : (∃ n, FacedBy R' i ps.1 ps.2 u d n ∧ SamePair ps.1.net n a b) ↔ ∃ n, FacedBy R i ps.1 ps.2 u d n ∧ SamePair ps.1.net n a b := by
    refine exists_congr fun n => and_congr_left fun hsp => ?_
    refine h.faced hkl hm hsub hR hR' hi k1 hn k2 hu.1 hu.2 hd.1 hd.2 ?_
    rcases hsp with ⟨h1, h2⟩ | ⟨h1, h2⟩
    · rw [h1, h2]; exact hne
    · rw [h1, h2]; exact hne.symm
  simp only [e]

theorem SameNear.fringe (h : SameNear t x x' halo depth a b) (hkl : Faithful kl) (hm : MergesPerNet kl)
    (hsub : ∀ l ∈ t.stack, IsMetal l → ¬ CanonicalIs t l.name "VSUBS") (ha : a ≠ "VSUBS") (hb : b ≠ "VSUBS")
    (hR : Regions kl t x halo names R) (hR' : Regions kl t x' halo names R') (dbu shalo : ℚ) (scale : Bool)
    (cov cs : String → String → ℚ) {sides sides' : Nat → List (Poly × Side)}
    (hs : ∀ i < names.length, AllSides (R.getD i []) (sides i))
    (hs' : ∀ i < names.length, AllSides (R'.getD i []) (sides' i)) :
    fringeTotal R' names dbu shalo scale cov cs depth sides' a b = fringeTotal R names dbu shalo scale cov cs depth sides a b := by
  classical
  unfold fringeTotal
  refine Finset.sum_congr rfl fun i hi => ?_
  rw [Finset.mem_range] at hi
  have zero : ∀ (S : List (List Poly)) (ps : Poly × Side), ¬ (ps.1.net = a ∨ ps.1.net = b) →
      seenTotal S names dbu shalo scale cov cs depth i ps.2 ps.1.net a b = 0 := by
    intro S ps hn
    unfold seenTotal
    refine Finset.sum_eq_zero fun j _ => Finset.sum_eq_zero fun u _ => Finset.sum_eq_zero fun w _ => if_neg ?_
    have hc : countsAs (names.getD i "") ps.1.net = "VSUBS" ∨ countsAs (names.getD i "") ps.1.net = ps.1.net := by
      unfold countsAs
      split
      · exact Or.inl rfl
      · exact Or.inr rfl
    rintro ⟨n, _, hsp⟩
    rcases hc with hc | hc <;> rw [hc] at hsp <;> rcases hsp with ⟨h1, _⟩ | ⟨h1, _⟩
    · exact ha h1.symm
    · exact hb h1.symm
    · exact hn (Or.inl h1)
    · exact hn (Or.inr h1)
  refine sum_two_nets (h.sides hm hR hR' hi (hs i hi) (hs' i hi)) (zero R) (zero R') fun ps hps hn => ?_
  unfold seenTotal
  refine Finset.sum_congr rfl fun j hj => Finset.sum_congr rfl fun u hu => Finset.sum_congr rfl fun w hw => ?_
  rw [Finset.mem_Ico] at hu hw
  rw [Finset.mem_filter, Finset.mem_range] at hj
  obtain ⟨k1, k2⟩ := ((hs i hi).mem _ _).1 hps
  simp only [h.seen hkl hsub hR hR' hi hj.1 k1 hn k2 hu.1 hu.2 hw.1 hw.2]

theorem SameNear.overlap (h : SameNear t x x' halo depth a b) (hd : 0 ≤ depth) (ha : a ≠ "VSUBS") (hb : b ≠ "VSUBS")
    (names : List String) (cap : String → String → ℚ) :
    overlapTotal t x' halo names cap a b = overlapTotal t x halo names cap a b := by
  have own : ∀ {y : Context}, (y = x ∨ y = x') → ∀ {n net c}, (net = a ∨ net = b) → On t y halo n net c → Near t x halo depth a b c := by
    intro y hy n net c hn hon
    rcases hon with ⟨_, h2, _⟩ | ⟨_, p, hp, h3, h4⟩
    · rcases hn with h1 | h1
      · exact absurd (h1.symm.trans h2) ha
      · exact absurd (h1.symm.trans h2) hb
    · have hpn : p.net = a ∨ p.net = b := by rw [h3]; exact hn
      refine ⟨n, p, c, ?_, hpn, h4, by simpa using hd, by simpa using hd⟩
      rcases hy with rfl | rfl
      · exact hp
      · exact (h.own n p hpn).1 hp
  have key : ∀ i j m m', (m' = a ∨ m' = b) →
      {c | Faces t x' halo names i j m m' c} = {c | Faces t x halo names i j m m' c} := by
    intro i j m m' hm'
    ext c
    constructor
    · intro hc
      have hc : Faces t x' halo names i j m m' c := hc
      have hnear := own (Or.inr rfl) hm' hc.1
      unfold Faces at hc
      simp only [h.near _ _ c hnear] at hc
      exact hc
    · intro hc
      have hc : Faces t x halo names i j m m' c := hc
      have hnear := own (Or.inl rfl) hm' hc.1
      show Faces t x' halo names i j m m' c
      unfold Faces
      simp only [h.near _ _ c hnear]
      exact hc
  unfold overlapTotal
  simp only [key _ _ a b (Or.inr rfl), key _ _ b a (Or.inl rfl), h.dbu]

/-! ### Theorem -/

/-- **C93.** The capacitance between two nets depends only on what lies within the side halo of their shapes: two layouts that
agree there give the same capacitance, up to the rounding of the fringe capacitances and 0.0001 fF for every rectangle that
is seen. -/
theorem local_netlist (kl : KLayout) (hkl : Faithful kl) (hk : Fringe.KernelOK kl.kernel)
    (hkb : Fringe.KernelBands kl.kernel) (hm : MergesPerNet kl) (cf : String → String) (t : Tech) (x x' : Context)
    (halo depth : ℤ) (a b : String) (hab : a ≠ b) (ha : a ≠ "VSUBS") (hb : b ≠ "VSUBS")
    (hsame : SameNear t x x' halo depth a b) (mode : Mode)
    (hmode : mode = .CC ∨ mode = .RC) (scale : Bool) (res res' : Except String (List RNetwork))
    (c d c' d' : Netlist.Circuit) (bb : Bool) (hrun : run kl cf t x mode scale halo res c bb = .ok c')
    (hrun' : run kl cf t x' mode scale halo res' d bb = .ok d')
    (hno : ∀ d ∈ c.devices, d.clsName ≠ "C") (hno' : ∀ e ∈ d.devices, e.clsName ≠ "C")
    (hshort : NoShorts t x halo) (hshort' : NoShorts t x' halo)
    (hsub : ∀ l ∈ t.stack, IsMetal l → ¬ CanonicalIs t l.name "VSUBS")
    (hnn : Overlap.NonNeg t.parasitics) (cap : String → String → ℚ)
    (hspec : ∀ names, IsStack t x names → ∀ i j, i < j → j < names.length →
      ∃ s, TechInfo.OverlapIs t.parasitics (names.getD j "") (names.getD i "") s ∧
        s.cap = cap (names.getD j "") (names.getD i ""))
    (hdbu : 0 < x.dbu) (hdbu' : x.dbu ≤ 10) (hdepth : depth = ⌊t.parasitics.sideHalo / x.dbu⌋ + 1)
    (hvis : ∀ names R, IsStack t x names → Regions kl t x halo names R → ∀ i < names.length,
      ∃ sides, Visits R i depth sides (kl.edges R i))
    (hvis' : ∀ names R, IsStack t x' names → Regions kl t x' halo names R → ∀ i < names.length,
      ∃ sides, Visits R i depth sides (kl.edges R i))
    (C off : String → ℚ) (hC : ∀ layer s, IsLast (fun s => s.layer = layer) t.parasitics.sidewalls s →
      s.cap = C layer ∧ s.offset = off layer)
    (cov cs : String → String → ℚ)
    (hcov : ∀ inside outside o, Fringe.PairSpec t.parasitics inside outside o → o.cap = cov inside outside)
    (hcs : ∀ inside outside s, SideOverlapIs t.parasitics inside outside s → s.cap = cs inside outside)
    (hcov0 : ∀ inside outside, 0 ≤ cov inside outside) (hcs0 : ∀ inside outside, 0 ≤ cs inside outside)
    (hhalo : 0 ≤ t.parasitics.sideHalo) (ε : ℝ) (hε : 0 ≤ ε)
    (hrnd : ∀ r, 1 / 10000 < r → |(kl.rnd r : ℝ) - r| ≤ ε * r) :
    ∃ (names : List String) (R R' : List (List Poly)) (sides sides' : Nat → List (Poly × Side))
      (views views' : Nat → Poly × Side → List View) (N : Nat),
      Picture kl t x halo depth names R sides views ∧ Picture kl t x' halo depth names R' sides' views' ∧
      N = ∑ i ∈ Finset.range names.length, (((sides i).map fun ps => (views i ps).length).sum +
        ((sides' i).map fun ps => (views' i ps).length).sum) ∧
      |(Rcx25Netlist.parasiticCap c' a b : ℝ) - Rcx25Netlist.parasiticCap d' a b| ≤
        2 * ε * fringeTotal R names x.dbu t.parasitics.sideHalo scale cov cs depth sides a b + N / 10000 := by
  obtain ⟨names, R, sides, views, N, h1, h2, h3, h4, h5, h6⟩ := netlist_cells kl hkl hk hkb cf t x mode hmode scale halo res c c'
    bb hrun hno hshort hsub hnn cap hspec hdbu hdbu' depth hdepth hvis C off hC cov cs hcov hcs hcov0 hcs0 hhalo ε hε hrnd
  obtain ⟨names', R', sides', views', N', k1, k2, k3, k4, k5, k6⟩ := netlist_cells kl hkl hk hkb cf t x' mode hmode scale halo
    res' d d' bb hrun' hno' hshort' hsub hnn cap (fun names hs => hspec names ((hsame.stack names).1 hs))
    (by rw [hsame.dbu]; exact hdbu) (by rw [hsame.dbu]; exact hdbu') depth (by rw [hsame.dbu]; exact hdepth) hvis' C off hC cov cs
    hcov hcs hcov0 hcs0 hhalo ε hε hrnd
  obtain rfl := ((hsame.stack _).1 k1).unique h1
  refine ⟨names', R, R', sides, sides', views, views', _, ⟨h1, h2, h3, h4⟩, ⟨k1, k2, k3, k4⟩, rfl, ?_⟩
  have hd0 : 0 ≤ depth := by
    have : 0 ≤ ⌊t.parasitics.sideHalo / x.dbu⌋ := Int.floor_nonneg.2 (div_nonneg hhalo hdbu.le)
    omega
  have e1 := abs_le.1 (h6 a b hab)
  have e2 := abs_le.1 (k6 a b hab)
  rw [hsame.dbu, hsame.overlap hd0 ha hb, hsame.wall hkl hm hsub hab h2 k2 _ C off h3 k3,
    hsame.fringe hkl hm hsub ha hb h2 k2 _ _ scale cov cs h3 k3] at e2
  have e3 : ((∑ i ∈ Finset.range names'.length, (((sides i).map fun ps => (views i ps).length).sum +
        ((sides' i).map fun ps => (views' i ps).length).sum) : ℕ) : ℝ) = N + N' := by
    rw [Finset.sum_add_distrib, ← h5, ← k5]; push_cast; rfl
  rw [e3, abs_le]
  constructor <;> linarith [e1.1, e1.2, e2.1, e2.2]

end Verif.Engine25
