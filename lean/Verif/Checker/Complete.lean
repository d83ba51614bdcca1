import Verif.Checker.Rounds
import Verif.Checker.Line

/-!
# The end of the rounds, seen on one line
-/

namespace Verif.Checker

open Verif.Finalize (Point Triangle)

theorem toQ_reversed (f : Edge) : f.reversed.reversed = f := rfl

/-- Position of a point along `e`. -/
def pos (e : Edge) (p : Point ℚ) : ℚ :=
  ((p.x - e.p0.x) * (e.p1.x - e.p0.x) + (p.y - e.p0.y) * (e.p1.y - e.p0.y) + (p.z - e.p0.z) * (e.p1.z - e.p0.z)) /
    ((e.p1.x - e.p0.x) ^ 2 + (e.p1.y - e.p0.y) ^ 2 + (e.p1.z - e.p0.z) ^ 2)

theorem sq_pos {e : Edge} (hne : e.p0 ≠ e.p1) :
    (0 : ℚ) < (e.p1.x - e.p0.x) ^ 2 + (e.p1.y - e.p0.y) ^ 2 + (e.p1.z - e.p0.z) ^ 2 := by
  have hx := sq_nonneg ((e.p1.x : ℚ) - e.p0.x)
  have hy := sq_nonneg ((e.p1.y : ℚ) - e.p0.y)
  have hz := sq_nonneg ((e.p1.z : ℚ) - e.p0.z)
  rcases lt_or_eq_of_le (add_nonneg (add_nonneg hx hy) hz) with h | h
  · exact h
  · exfalso
    apply hne
    have h1 : ((e.p1.x : ℚ) - e.p0.x) = 0 := pow_eq_zero_iff (n := 2) (by norm_num) |>.1 (by linarith)
    have h2 : ((e.p1.y : ℚ) - e.p0.y) = 0 := pow_eq_zero_iff (n := 2) (by norm_num) |>.1 (by linarith)
    have h3 : ((e.p1.z : ℚ) - e.p0.z) = 0 := pow_eq_zero_iff (n := 2) (by norm_num) |>.1 (by linarith)
    apply toQ_inj
    simp only [toQ, Point.mk.injEq]
    exact ⟨by linarith, by linarith, by linarith⟩

theorem pos_of_isAt {e : Edge} (hne : e.p0 ≠ e.p1) {s : ℚ} {p : Point ℚ} (h : IsAt e.p0 e.p1 s p) : pos e p = s := by
  obtain ⟨hx, hy, hz⟩ := h
  have hL := sq_pos hne
  unfold pos
  rw [hx, hy, hz, div_eq_iff hL.ne']
  ring

theorem isAt_unique {e : Edge} (hne : e.p0 ≠ e.p1) {s t : ℚ} {p : Point ℚ} (h : IsAt e.p0 e.p1 s p)
    (h' : IsAt e.p0 e.p1 t p) : s = t := by rw [← pos_of_isAt hne h, pos_of_isAt hne h']

theorem isAt_inj {a b : Point ℤ} {s : ℚ} {p q : Point ℚ} (h : IsAt a b s p) (h' : IsAt a b s q) : p = q := by
  cases p; cases q
  obtain ⟨hx, hy, hz⟩ := h
  obtain ⟨gx, gy, gz⟩ := h'
  simp only at hx hy hz gx gy gz
  simp [hx, hy, hz, gx, gy, gz]

/-- The point at a fraction. -/
def at_ (e : Edge) (s : ℚ) : Point ℚ :=
  ⟨e.p0.x + s * (e.p1.x - e.p0.x), e.p0.y + s * (e.p1.y - e.p0.y), e.p0.z + s * (e.p1.z - e.p0.z)⟩

theorem isAt_at (e : Edge) (s : ℚ) : IsAt e.p0 e.p1 s (at_ e s) := ⟨rfl, rfl, rfl⟩

/-- The whole of which a part is a part is a multiple of the part. -/
theorem Part.inv {o f : Edge} {u v : ℚ} (h : Part o f u v) (huv : u < v) :
    Part f o (-u / (v - u)) ((1 - u) / (v - u)) := by
  have hd : v - u ≠ 0 := by linarith
  constructor
  · rw [isAt_part h]
    have : u + -u / (v - u) * (v - u) = 0 := by field_simp; ring
    rw [this]
    simp [IsAt, toQ]
  · rw [isAt_part h]
    have : u + (1 - u) / (v - u) * (v - u) = 1 := by field_simp; ring
    rw [this]
    simp [IsAt, toQ]

/-- An edge parallel to `e` that has a point in common with the line of `e` is a part of that line. -/
theorem part_of_multiple {e f : Edge} {k s y : ℚ} {q : Point ℚ} (hm : Multiple k e.side f.side)
    (hq : IsAt f.p0 f.p1 s q) (hy : IsAt e.p0 e.p1 y q) : Part e f (y - s * k) (y - s * k + k) := by
  obtain ⟨mx, my, mz⟩ := hm
  obtain ⟨qx, qy, qz⟩ := hq
  obtain ⟨yx, yy, yz⟩ := hy
  simp only [Edge.side] at mx my mz
  rw [mx] at qx; rw [my] at qy; rw [mz] at qz
  refine ⟨⟨?_, ?_, ?_⟩, ?_, ?_, ?_⟩ <;> simp only [toQ] <;> linarith

/-- The intervals of the edges of `S` that run along `e`. -/
def along (e : Edge) (S : List Edge) : Set (ℚ × ℚ) := {i | i.1 < i.2 ∧ ∃ f ∈ S, Part e f i.1 i.2}

/-- The intervals of the edges of `S` that run against `e`. -/
def against (e : Edge) (S : List Edge) : Set (ℚ × ℚ) := {i | i.1 < i.2 ∧ ∃ f ∈ S, Part e f i.2 i.1}

theorem part_unique {e f : Edge} (hne : e.p0 ≠ e.p1) {l r l' r' : ℚ} (h : Part e f l r) (h' : Part e f l' r') :
    l = l' ∧ r = r' := ⟨isAt_unique hne h.1 h'.1, isAt_unique hne h.2 h'.2⟩

theorem along_finite {e : Edge} (hne : e.p0 ≠ e.p1) (S : List Edge) : (along e S).Finite := by
  refine Set.Finite.subset ((List.finite_toSet S).image fun f => (pos e (toQ f.p0), pos e (toQ f.p1))) ?_
  rintro ⟨l, r⟩ ⟨_, f, hf, h⟩
  exact ⟨f, hf, Prod.ext (pos_of_isAt hne h.1) (pos_of_isAt hne h.2)⟩

theorem against_finite {e : Edge} (hne : e.p0 ≠ e.p1) (S : List Edge) : (against e S).Finite := by
  refine Set.Finite.subset ((List.finite_toSet S).image fun f => (pos e (toQ f.p1), pos e (toQ f.p0))) ?_
  rintro ⟨l, r⟩ ⟨_, f, hf, h⟩
  exact ⟨f, hf, Prod.ext (pos_of_isAt hne h.2) (pos_of_isAt hne h.1)⟩

theorem onSide_along {e f : Edge} {l r y : ℚ} (h : Part e f l r) (hlr : l < r) (h1 : l ≤ y) (h2 : y ≤ r) :
    OnSide (at_ e y) f.side := by
  have hd : 0 < r - l := by linarith
  refine ⟨(y - l) / (r - l), div_nonneg (by linarith) hd.le, (div_le_one hd).2 (by linarith), ?_⟩
  refine (isAt_part h _ _).2 ?_
  have : l + (y - l) / (r - l) * (r - l) = y := by field_simp; ring
  rw [this]
  exact isAt_at e y

theorem onSide_against {e f : Edge} {l r y : ℚ} (h : Part e f r l) (hlr : l < r) (h1 : l ≤ y) (h2 : y ≤ r) :
    OnSide (at_ e y) f.side := by
  have hp : Part e f.reversed l r := ⟨h.2, h.1⟩
  exact onSide_rev (onSide_along hp hlr h1 h2)

theorem cov_along {e : Edge} (S : List Edge) (y : ℚ) : Cov (along e S) y ↔ CovDir S e.side (at_ e y) := by
  constructor
  · rintro ⟨⟨l, r⟩, ⟨hlr, f, hf, h⟩, h1, h2⟩
    exact ⟨f, hf, ⟨r - l, by simpa using hlr, h.multiple⟩, onSide_along h hlr h1 h2⟩
  · rintro ⟨f, hf, ⟨k, k0, hk⟩, s, s0, s1, hs⟩
    have hp := part_of_multiple hk hs (isAt_at e y)
    refine ⟨(y - s * k, y - s * k + k), ⟨by simpa using k0, f, hf, hp⟩, ?_, ?_⟩
    · have := mul_nonneg s0 k0.le
      simp only; linarith
    · have := mul_le_of_le_one_left k0.le s1
      simp only; linarith

theorem cov_against {e : Edge} (S : List Edge) (y : ℚ) :
    Cov (against e S) y ↔ CovDir S e.reversed.side (at_ e y) := by
  have hrev : ∀ {k : ℚ} {f : Edge}, Multiple k e.reversed.side f.side ↔ Multiple (-k) e.side f.side := by
    intro k f
    simp only [Multiple, Edge.side, Edge.reversed]
    constructor <;> rintro ⟨h1, h2, h3⟩ <;> exact ⟨by linarith, by linarith, by linarith⟩
  constructor
  · rintro ⟨⟨l, r⟩, ⟨hlr, f, hf, h⟩, h1, h2⟩
    refine ⟨f, hf, ⟨r - l, by simpa using hlr, hrev.2 ?_⟩, onSide_against h hlr h1 h2⟩
    have := h.multiple
    simpa using this
  · rintro ⟨f, hf, ⟨k, k0, hk⟩, s, s0, s1, hs⟩
    have hp := part_of_multiple (hrev.1 hk) hs (isAt_at e y)
    refine ⟨(y - s * -k + -k, y - s * -k), ⟨by simpa using k0, f, hf, hp⟩, ?_, ?_⟩
    · have := mul_le_of_le_one_left k0.le s1
      simp only; linarith
    · have := mul_nonneg s0 k0.le
      simp only; linarith

theorem Multiple.mk_opp {a b c : Point ℤ × Point ℤ} {k l : ℚ} (hk : k ≠ 0) (h : Multiple k a b) (h' : Multiple l a c) :
    Multiple (l * k⁻¹) b c := (h.inv hk).trans h'

theorem side_inj {e f : Edge} (h : e.side = f.side) : e = f := by
  cases e; cases f
  simpa [Edge.side] using h

/-- Ends of original edges on the line of `e`. -/
theorem ends_on_line {O : List Edge} {e f : Edge} {l r : ℚ} (h : Part e f l r) (hlr : l ≠ r) {p : Point ℤ} {x : ℚ}
    (hx : IsAt e.p0 e.p1 x (toQ p)) (hend : EndOf O f p) :
    ∃ o, (o ∈ along e O ∨ o ∈ against e O) ∧ (x = o.1 ∨ x = o.2) := by
  obtain ⟨o, ho, hp, k, hk, hm⟩ := hend
  have hm' : Multiple (k * (r - l)) e.side o.side := h.multiple.trans hm
  set K := k * (r - l) with hK
  have hK0 : K ≠ 0 := mul_ne_zero hk (sub_ne_zero.2 hlr.symm)
  rcases hp with rfl | rfl
  · have hpart := part_of_multiple (s := 0) hm' (by simp [IsAt, toQ]) hx
    simp only [zero_mul, sub_zero] at hpart
    rcases lt_or_gt_of_ne hK0 with hneg | hpos
    · exact ⟨(x + K, x), Or.inr ⟨by simpa using hneg, o, ho, hpart⟩, Or.inr rfl⟩
    · exact ⟨(x, x + K), Or.inl ⟨by simpa using hpos, o, ho, hpart⟩, Or.inl rfl⟩
  · have hpart := part_of_multiple (s := 1) hm' (by simp [IsAt, toQ]) hx
    simp only [one_mul, sub_add_cancel] at hpart
    rcases lt_or_gt_of_ne hK0 with hneg | hpos
    · exact ⟨(x, x - K), Or.inr ⟨by simp only; linarith, o, ho, hpart⟩, Or.inl rfl⟩
    · exact ⟨(x - K, x), Or.inl ⟨by simp only; linarith, o, ho, hpart⟩, Or.inr rfl⟩

/-- Opposite edges that share an end and differ in length: the longer one is split. -/
theorem shorter_of_parts {e f g : Edge} (hne : e.p0 ≠ e.p1) {l r m n : ℚ} (hf : Part e f l r) (hg : Part e g n m)
    (h1 : l < r) (h2 : m < n) (h3 : n - m < r - l) : shorter f g = true := by
  rw [shorter_iff]
  obtain ⟨fx, fy, fz⟩ := hf.multiple
  obtain ⟨gx, gy, gz⟩ := hg.multiple
  simp only [Edge.side] at fx fy fz gx gy gz
  have hL := sq_pos hne
  have hfv : ∀ c d : ℤ, ((c : ℚ) = d) → c = d := fun c d h => by exact_mod_cast h
  refine ⟨?_, ?_, ?_⟩
  · simp only [vectorProduct, Edge.vec, Point.mk.injEq]
    refine ⟨hfv _ _ ?_, hfv _ _ ?_, hfv _ _ ?_⟩ <;> push_cast <;> simp only [fx, fy, fz, gx, gy, gz] <;> ring
  · have : (dotProduct f.vec g.vec : ℚ) < 0 := by
      simp only [dotProduct, Edge.vec]
      push_cast
      rw [fx, fy, fz, gx, gy, gz]
      have : 0 < (r - l) * (n - m) * ((e.p1.x - e.p0.x : ℚ) ^ 2 + (e.p1.y - e.p0.y) ^ 2 + (e.p1.z - e.p0.z) ^ 2) :=
        mul_pos (mul_pos (by linarith) (by linarith)) hL
      linarith
    exact_mod_cast this
  · have : (sqLength g.vec : ℚ) < sqLength f.vec := by
      simp only [sqLength, Edge.vec]
      push_cast
      rw [fx, fy, fz, gx, gy, gz]
      have : 0 < ((r - l) ^ 2 - (n - m) ^ 2) *
          ((e.p1.x - e.p0.x : ℚ) ^ 2 + (e.p1.y - e.p0.y) ^ 2 + (e.p1.z - e.p0.z) ^ 2) :=
        mul_pos (by nlinarith) hL
      linarith
    exact_mod_cast this

/-- On the line of every edge, the end of the rounds refines the same partition in both directions. -/
theorem refined_of_fixed {O : List Edge} {st : St} (hinv : Inv O st) (hfix : Fixed st)
    (hsimple : Simple (O.map Edge.side)) (hclosed : Closed (O.map Edge.side)) {e : Edge} (hne : e.p0 ≠ e.p1) :
    Refined (along e O) (against e O) (along e st.edges) (against e st.edges) where
  finA := along_finite hne _
  finB := against_finite hne _
  posA0 := fun i hi => hi.1
  posB0 := fun i hi => hi.1
  posA := fun i hi => hi.1
  posB := fun i hi => hi.1
  simpleA := by
    rintro ⟨l, r⟩ ⟨hlr, f, hf, h⟩ ⟨l', r'⟩ ⟨hlr', f', hf', h'⟩ u v huv h1 h2 h3 h4
    simp only at hlr hlr' h h' h1 h2 h3 h4
    by_cases heq : f = f'
    · subst heq
      obtain ⟨rfl, rfl⟩ := part_unique hne h h'
      rfl
    · exfalso
      have hsame : SameDirection f.side f'.side :=
        ⟨(r' - l') * (r - l)⁻¹, mul_pos (by linarith) (inv_pos.2 (by linarith)),
          Multiple.mk_opp (by linarith) h.multiple h'.multiple⟩
      have hq := hsimple.2 f.side (List.mem_map.2 ⟨f, hf, rfl⟩) f'.side (List.mem_map.2 ⟨f', hf', rfl⟩)
        (fun hc => heq (side_inj hc)) hsame (at_ e u) (at_ e v) (onSide_along h hlr h1 (by linarith))
        (onSide_along h' hlr' h3 (by linarith)) (onSide_along h hlr (by linarith) h2)
        (onSide_along h' hlr' (by linarith) h4)
      have := isAt_unique hne (isAt_at e u) (hq ▸ isAt_at e v)
      linarith
  simpleB := by
    rintro ⟨l, r⟩ ⟨hlr, f, hf, h⟩ ⟨l', r'⟩ ⟨hlr', f', hf', h'⟩ u v huv h1 h2 h3 h4
    simp only at hlr hlr' h h' h1 h2 h3 h4
    by_cases heq : f = f'
    · subst heq
      obtain ⟨rfl, rfl⟩ := part_unique hne h h'
      rfl
    · exfalso
      have hsame : SameDirection f.side f'.side :=
        ⟨(l' - r') * (l - r)⁻¹, mul_pos_of_neg_of_neg (by linarith) (inv_lt_zero.2 (by linarith)),
          Multiple.mk_opp (by linarith) h.multiple h'.multiple⟩
      have hq := hsimple.2 f.side (List.mem_map.2 ⟨f, hf, rfl⟩) f'.side (List.mem_map.2 ⟨f', hf', rfl⟩)
        (fun hc => heq (side_inj hc)) hsame (at_ e u) (at_ e v) (onSide_against h hlr h1 (by linarith))
        (onSide_against h' hlr' h3 (by linarith)) (onSide_against h hlr (by linarith) h2)
        (onSide_against h' hlr' (by linarith) h4)
      have := isAt_unique hne (isAt_at e u) (hq ▸ isAt_at e v)
      linarith
  covAB := by
    intro y
    have hcl : ∀ d d' : Edge, d' = d.reversed → CovDir O d.side (at_ e y) → CovDir O d'.side (at_ e y) := by
      rintro d _ rfl ⟨o, ho, ⟨k, k0, hk⟩, hq⟩
      by_cases hd : d.p0 = d.p1
      · refine ⟨o, ho, ⟨k, k0, ?_⟩, hq⟩
        have : d.reversed = d := by cases d; simp_all [Edge.reversed]
        rw [this]
        exact hk
      have hone : o.p0 ≠ o.p1 := by
        intro hc
        apply hd
        obtain ⟨hx, hy, hz⟩ := hk
        simp only [Edge.side, hc, sub_self] at hx hy hz
        have h1 := (mul_eq_zero.1 hx.symm).resolve_left k0.ne'
        have h2 := (mul_eq_zero.1 hy.symm).resolve_left k0.ne'
        have h3 := (mul_eq_zero.1 hz.symm).resolve_left k0.ne'
        apply toQ_inj
        simp only [toQ, Point.mk.injEq]
        exact ⟨by linarith, by linarith, by linarith⟩
      obtain ⟨cd, hcd, ⟨k', k'0, hk'⟩, hq'⟩ := hclosed o.side (List.mem_map.2 ⟨o, ho, rfl⟩) hone _ hq
      obtain ⟨o', ho', rfl⟩ := List.mem_map.1 hcd
      refine ⟨o', ho', ⟨-(k' * k), ?_, ?_⟩, hq'⟩
      · have := mul_neg_of_neg_of_pos k'0 k0
        linarith
      · obtain ⟨hx, hy, hz⟩ := hk.trans hk'
        simp only [Edge.side] at hx hy hz
        simp only [Multiple, Edge.side, Edge.reversed]
        exact ⟨by linarith, by linarith, by linarith⟩
    rw [cov_along, cov_against, hinv.cov, hinv.cov]
    exact ⟨hcl e e.reversed rfl, hcl e.reversed e rfl⟩
  inA := by
    rintro ⟨l, r⟩ ⟨hlr, f, hf, h⟩
    simp only at hlr h
    obtain ⟨o, ho, u, v, u0, uv, v1, hp⟩ := (hinv.good hf).sub
    have hd : 0 < v - u := by linarith
    have hpo := h.trans (hp.inv uv)
    have e1 : -u / (v - u) * (r - l) ≤ 0 :=
      mul_nonpos_of_nonpos_of_nonneg (div_nonpos_of_nonpos_of_nonneg (by linarith) hd.le) (by linarith)
    have e2 : r - l ≤ (1 - u) / (v - u) * (r - l) :=
      le_mul_of_one_le_left (by linarith) ((one_le_div hd).2 (by linarith))
    refine ⟨(_, _), ⟨?_, o, ho, hpo⟩, ?_, ?_⟩
    · simp only; linarith
    · simp only; linarith
    · simp only; linarith
  inB := by
    rintro ⟨l, r⟩ ⟨hlr, f, hf, h⟩
    simp only at hlr h
    obtain ⟨o, ho, u, v, u0, uv, v1, hp⟩ := (hinv.good hf).sub
    have hd : 0 < v - u := by linarith
    have hpo := h.trans (hp.inv uv)
    have e1 : 0 ≤ -u / (v - u) * (l - r) :=
      mul_nonneg_of_nonpos_of_nonpos (div_nonpos_of_nonpos_of_nonneg (by linarith) hd.le) (by linarith)
    have e2 : r - l ≤ (1 - u) / (v - u) * (r - l) :=
      le_mul_of_one_le_left (by linarith) ((one_le_div hd).2 (by linarith))
    refine ⟨(_, _), ⟨?_, o, ho, hpo⟩, ?_, ?_⟩
    · simp only; linarith
    · simp only; linarith
    · simp only; linarith
  startA := by
    rintro ⟨l, r⟩ ⟨hlr, f, hf, h⟩
    exact ends_on_line h hlr.ne h.1 (hinv.good hf).end0
  startB := by
    rintro ⟨l, r⟩ ⟨hlr, f, hf, h⟩
    exact ends_on_line h hlr.ne' h.2 (hinv.good hf).end1
  fix := by
    rintro ⟨l, r⟩ ⟨hlr, f, hf, h⟩ ⟨l', r'⟩ ⟨hlr', g, hg, h'⟩ heq
    simp only at hlr h hlr' h' heq ⊢
    subst heq
    have hp : g.p1 = f.p0 := toQ_inj (isAt_inj h'.2 h.1)
    rcases lt_trichotomy r r' with hlt | heq | hgt
    · have h1 := hfix g hg f hf (Or.inr hp.symm)
      have hf' : Part e.reversed f (1 - l) (1 - r) := by
        have : ∀ (s : ℚ) (q : Point ℚ), IsAt e.p0 e.p1 s q → IsAt e.reversed.p0 e.reversed.p1 (1 - s) q := by
          rintro s q ⟨hx, hy, hz⟩
          simp only [IsAt, Edge.reversed]
          exact ⟨by linarith, by linarith, by linarith⟩
        exact ⟨this _ _ h.1, this _ _ h.2⟩
      have hg' : Part e.reversed g (1 - r') (1 - l) := by
        have : ∀ (s : ℚ) (q : Point ℚ), IsAt e.p0 e.p1 s q → IsAt e.reversed.p0 e.reversed.p1 (1 - s) q := by
          rintro s q ⟨hx, hy, hz⟩
          simp only [IsAt, Edge.reversed]
          exact ⟨by linarith, by linarith, by linarith⟩
        exact ⟨this _ _ h'.1, this _ _ h'.2⟩
      have := shorter_of_parts (e := e.reversed) (fun hc => hne hc.symm) hg' hf' (by linarith) (by linarith)
        (by linarith)
      rw [this] at h1
      exact absurd h1 (by simp)
    · exact heq
    · have h1 := hfix f hf g hg (Or.inl hp)
      have := shorter_of_parts hne h h' hlr hlr' (by linarith)
      rw [this] at h1
      exact absurd h1 (by simp)

/-- At the end every edge has its reverse. -/
theorem reversed_mem {O : List Edge} {st : St} (hinv : Inv O st) (hfix : Fixed st)
    (hsimple : Simple (O.map Edge.side)) (hclosed : Closed (O.map Edge.side)) {e : Edge} (he : e ∈ st.edges) :
    e.reversed ∈ st.edges := by
  by_cases hne : e.p0 = e.p1
  · have : e.reversed = e := by cases e; simp_all [Edge.reversed]
    rw [this]
    exact he
  · have heq := refined_eq (refined_of_fixed hinv hfix hsimple hclosed hne)
    have hmem : ((0 : ℚ), (1 : ℚ)) ∈ along e st.edges := ⟨by norm_num, e, he, part_self e⟩
    rw [heq] at hmem
    obtain ⟨_, f, hf, h⟩ := hmem
    have h0 : f.p0 = e.p1 := toQ_inj (isAt_inj h.1 (by simp [IsAt, toQ]))
    have h1 : f.p1 = e.p0 := toQ_inj (isAt_inj h.2 (by simp [IsAt, toQ]))
    have : f = e.reversed := by cases f; simp_all [Edge.reversed]
    exact this ▸ hf

/-- When every edge has its reverse at the end, the original edges are closed. -/
theorem closed_of_reversed {O : List Edge} {st : St} (hinv : Inv O st)
    (h : ∀ e ∈ st.edges, e.reversed ∈ st.edges) : Closed (O.map Edge.side) := by
  intro ab hab hne q hq
  obtain ⟨o, ho, rfl⟩ := List.mem_map.1 hab
  have h1 : CovDir O o.side q := ⟨o, ho, ⟨1, by norm_num, by simp [Multiple]⟩, hq⟩
  obtain ⟨f, hf, ⟨k, k0, hk⟩, hqf⟩ := (hinv.cov _ _).2 h1
  have h2 : CovDir st.edges f.reversed.side q :=
    ⟨f.reversed, h f hf, ⟨1, by norm_num, by simp [Multiple]⟩, onSide_rev hqf⟩
  obtain ⟨g, hg, ⟨k', k'0, hk'⟩, hqg⟩ := (hinv.cov _ _).1 h2
  refine ⟨g.side, List.mem_map.2 ⟨g, hg, rfl⟩, ⟨k' * -k, ?_, hk.rev.trans hk'⟩, hqg⟩
  have := mul_pos k'0 k0
  linarith

end Verif.Checker
