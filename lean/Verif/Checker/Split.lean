import Verif.Checker.Model
import Verif.Checker.Spec
import Mathlib.Tactic.Linarith
import Mathlib.Tactic.Ring
import Mathlib.Tactic.LinearCombination
import Mathlib.Tactic.Positivity
import Mathlib.Tactic.FieldSimp
import Mathlib.Data.List.Nodup

/-!
# Invariants of `_split_edges`
-/

namespace Verif.Checker

open Verif.Finalize (Point Triangle)

/-- The side of an edge. -/
def Edge.side (e : Edge) : Point ℤ × Point ℤ := (e.p0, e.p1)

/-- A grid point as a rational point. -/
def toQ (p : Point ℤ) : Point ℚ := ⟨p.x, p.y, p.z⟩

theorem toQ_inj {p q : Point ℤ} (h : toQ p = toQ q) : p = q := by
  cases p; cases q
  simp only [toQ, Point.mk.injEq, Int.cast_inj] at h
  obtain ⟨rfl, rfl, rfl⟩ := h
  rfl

/-- `m` lies strictly inside of `e`, which has a positive length. -/
def Mid (e : Edge) (m : Point ℤ) : Prop := 0 < sqLength e.vec ∧ ∃ s : ℚ, 0 < s ∧ s < 1 ∧ IsAt e.p0 e.p1 s (toQ m)

/-! ### The condition of the code -/

theorem shorter_iff (e f : Edge) : shorter e f = true ↔
    vectorProduct e.vec f.vec = ⟨0, 0, 0⟩ ∧ dotProduct e.vec f.vec < 0 ∧ sqLength f.vec < sqLength e.vec := by
  have hsq : ∀ v : Point ℤ, ¬ (|(sqLength v : ℚ)| > 1 / 2) ↔ v = ⟨0, 0, 0⟩ := by
    intro v
    have h0 : (0 : ℤ) ≤ sqLength v := by unfold sqLength; positivity
    have h0' : (0 : ℚ) ≤ sqLength v := by exact_mod_cast h0
    rw [abs_of_nonneg h0', not_lt]
    constructor
    · intro h
      have : sqLength v < 1 := by
        have : (sqLength v : ℚ) < 1 := by linarith
        exact_mod_cast this
      have hz : sqLength v = 0 := by omega
      unfold sqLength at hz
      have hx := sq_nonneg v.x
      have hy := sq_nonneg v.y
      have hzz := sq_nonneg v.z
      have h1 : v.x = 0 := pow_eq_zero_iff (n := 2) (by norm_num) |>.1 (by omega)
      have h2 : v.y = 0 := pow_eq_zero_iff (n := 2) (by norm_num) |>.1 (by omega)
      have h3 : v.z = 0 := pow_eq_zero_iff (n := 2) (by norm_num) |>.1 (by omega)
      cases v
      simp_all
    · rintro rfl
      norm_num [sqLength]
  have hlen : ∀ a b : ℤ, ((a : ℚ) < (b : ℚ) - 1 / 2) ↔ a < b := by
    intro a b
    constructor
    · intro h
      have : (a : ℚ) < b := by linarith
      exact_mod_cast this
    · intro h
      have : a + 1 ≤ b := h
      have : (a : ℚ) + 1 ≤ b := by exact_mod_cast this
      linarith
  unfold shorter isAntiparallel
  by_cases hv : |(sqLength (vectorProduct e.vec f.vec) : ℚ)| > 1 / 2
  · have hn := mt (hsq _).2 (not_not.2 hv)
    dsimp only
    rw [if_pos hv]
    constructor
    · intro h
      simp at h
    · rintro ⟨h, _⟩
      exact absurd h hn
  · have hz := (hsq _).1 hv
    dsimp only
    rw [if_neg hv, Bool.and_eq_true, decide_eq_true_eq, decide_eq_true_eq, hlen]
    tauto

/-- Two integer vectors, antiparallel, the second one shorter. -/
theorem antiparallel_factor (a b : Point ℤ) (hc : vectorProduct a b = ⟨0, 0, 0⟩) (hd : dotProduct a b < 0)
    (hl : sqLength b < sqLength a) :
    ∃ k : ℚ, 0 < k ∧ k < 1 ∧ (b.x : ℚ) = -k * a.x ∧ (b.y : ℚ) = -k * a.y ∧ (b.z : ℚ) = -k * a.z := by
  obtain ⟨ax, ay, az⟩ := a
  obtain ⟨bx, «by», bz⟩ := b
  simp only [vectorProduct, dotProduct, sqLength, Point.mk.injEq] at hc hd hl ⊢
  obtain ⟨h1, h2, h3⟩ := hc
  have g1 : (ay * bz - az * «by» : ℚ) = 0 := by exact_mod_cast h1
  have g2 : (az * bx - ax * bz : ℚ) = 0 := by exact_mod_cast h2
  have g3 : (ax * «by» - ay * bx : ℚ) = 0 := by exact_mod_cast h3
  have gd : (ax * bx + ay * «by» + az * bz : ℚ) < 0 := by exact_mod_cast hd
  have gl : (bx ^ 2 + «by» ^ 2 + bz ^ 2 : ℚ) < ax ^ 2 + ay ^ 2 + az ^ 2 := by exact_mod_cast hl
  set L : ℚ := ax ^ 2 + ay ^ 2 + az ^ 2 with hL
  set D : ℚ := ax * bx + ay * «by» + az * bz with hD
  have hb : (0 : ℚ) ≤ bx ^ 2 + «by» ^ 2 + bz ^ 2 := by positivity
  have hLpos : 0 < L := by linarith
  have e1 : (bx : ℚ) * L = ax * D := by rw [hL, hD]; linear_combination (-(ay : ℚ)) * g3 + az * g2
  have e2 : («by» : ℚ) * L = ay * D := by rw [hL, hD]; linear_combination (ax : ℚ) * g3 - az * g1
  have e3 : (bz : ℚ) * L = az * D := by rw [hL, hD]; linear_combination (-(ax : ℚ)) * g2 + ay * g1
  have e4 : D ^ 2 = L * (bx ^ 2 + «by» ^ 2 + bz ^ 2) := by
    rw [hL, hD]
    linear_combination -((ay * bz - az * «by» : ℚ) * g1 + (az * bx - ax * bz : ℚ) * g2 + (ax * «by» - ay * bx : ℚ) * g3)
  refine ⟨-D / L, div_pos (by linarith) hLpos, ?_, ?_, ?_, ?_⟩
  · rw [div_lt_one hLpos]
    nlinarith
  · field_simp; linarith
  · field_simp; linarith
  · field_simp; linarith

theorem mid1 {e f : Edge} (hs : shorter e f = true) (h : f.p1 = e.p0) : Mid e f.p0 := by
  obtain ⟨hc, hd, hl⟩ := (shorter_iff e f).1 hs
  obtain ⟨k, k0, k1, hx, hy, hz⟩ := antiparallel_factor _ _ hc hd hl
  have hpos : 0 < sqLength e.vec := lt_of_le_of_lt (by unfold sqLength; positivity) hl
  simp only [Edge.vec, h] at hx hy hz
  push_cast at hx hy hz
  exact ⟨hpos, k, k0, k1, by simp only [toQ]; linarith, by simp only [toQ]; linarith, by simp only [toQ]; linarith⟩

theorem mid2 {e f : Edge} (hs : shorter e f = true) (h : f.p0 = e.p1) : Mid e f.p1 := by
  obtain ⟨hc, hd, hl⟩ := (shorter_iff e f).1 hs
  obtain ⟨k, k0, k1, hx, hy, hz⟩ := antiparallel_factor _ _ hc hd hl
  have hpos : 0 < sqLength e.vec := lt_of_le_of_lt (by unfold sqLength; positivity) hl
  simp only [Edge.vec, h] at hx hy hz
  push_cast at hx hy hz
  exact ⟨hpos, 1 - k, by linarith, by linarith, by simp only [toQ]; linarith, by simp only [toQ]; linarith,
    by simp only [toQ]; linarith⟩

/-! ### Parts of edges -/

/-- `f` is the part of `o` between the fractions `u` and `v`. -/
def Part (o f : Edge) (u v : ℚ) : Prop := IsAt o.p0 o.p1 u (toQ f.p0) ∧ IsAt o.p0 o.p1 v (toQ f.p1)

theorem isAt_part {o f : Edge} {u v : ℚ} (h : Part o f u v) (s : ℚ) (q : Point ℚ) :
    IsAt f.p0 f.p1 s q ↔ IsAt o.p0 o.p1 (u + s * (v - u)) q := by
  obtain ⟨⟨x0, y0, z0⟩, ⟨x1, y1, z1⟩⟩ := h
  simp only [toQ] at x0 y0 z0 x1 y1 z1
  have hx : (f.p0.x : ℚ) + s * (f.p1.x - f.p0.x) = o.p0.x + (u + s * (v - u)) * (o.p1.x - o.p0.x) := by
    rw [x0, x1]; ring
  have hy : (f.p0.y : ℚ) + s * (f.p1.y - f.p0.y) = o.p0.y + (u + s * (v - u)) * (o.p1.y - o.p0.y) := by
    rw [y0, y1]; ring
  have hz : (f.p0.z : ℚ) + s * (f.p1.z - f.p0.z) = o.p0.z + (u + s * (v - u)) * (o.p1.z - o.p0.z) := by
    rw [z0, z1]; ring
  simp only [IsAt, hx, hy, hz]

theorem part_self (e : Edge) : Part e e 0 1 := by
  constructor <;> simp [IsAt, toQ]

theorem Part.trans {o e f : Edge} {u v s t : ℚ} (h : Part o e u v) (h' : Part e f s t) :
    Part o f (u + s * (v - u)) (u + t * (v - u)) := ⟨(isAt_part h _ _).1 h'.1, (isAt_part h _ _).1 h'.2⟩

theorem Part.multiple {o f : Edge} {u v : ℚ} (h : Part o f u v) : Multiple (v - u) o.side f.side := by
  obtain ⟨⟨x0, y0, z0⟩, ⟨x1, y1, z1⟩⟩ := h
  simp only [toQ] at x0 y0 z0 x1 y1 z1
  simp only [Multiple, Edge.side]
  exact ⟨by rw [x0, x1]; ring, by rw [y0, y1]; ring, by rw [z0, z1]; ring⟩

theorem Multiple.trans {a b c : Point ℤ × Point ℤ} {k l : ℚ} (h : Multiple k a b) (h' : Multiple l b c) :
    Multiple (l * k) a c := by
  obtain ⟨h1, h2, h3⟩ := h
  obtain ⟨g1, g2, g3⟩ := h'
  exact ⟨by rw [g1, h1]; ring, by rw [g2, h2]; ring, by rw [g3, h3]; ring⟩

theorem Multiple.inv {a b : Point ℤ × Point ℤ} {k : ℚ} (hk : k ≠ 0) (h : Multiple k a b) : Multiple k⁻¹ b a := by
  obtain ⟨h1, h2, h3⟩ := h
  exact ⟨by rw [h1, inv_mul_cancel_left₀ hk], by rw [h2, inv_mul_cancel_left₀ hk], by rw [h3, inv_mul_cancel_left₀ hk]⟩

theorem Multiple.rev {a : Point ℤ × Point ℤ} {e : Edge} {k : ℚ} (h : Multiple k a e.side) :
    Multiple (-k) a e.reversed.side := by
  obtain ⟨h1, h2, h3⟩ := h
  simp only [Edge.side] at h1 h2 h3
  simp only [Multiple, Edge.side, Edge.reversed]
  exact ⟨by linarith, by linarith, by linarith⟩

theorem Mid.part1 {e : Edge} {m : Point ℤ} {s : ℚ} (h : IsAt e.p0 e.p1 s (toQ m)) : Part e ⟨e.p0, m⟩ 0 s :=
  ⟨by simp [IsAt, toQ], h⟩

theorem Mid.part2 {e : Edge} {m : Point ℤ} {s : ℚ} (h : IsAt e.p0 e.p1 s (toQ m)) : Part e ⟨m, e.p1⟩ s 1 :=
  ⟨h, by simp [IsAt, toQ]⟩

/-- The two parts of an edge at each point of a list. -/
def pieces (e : Edge) (ms : List (Point ℤ)) : List Edge := ms.flatMap fun m => [⟨e.p0, m⟩, ⟨m, e.p1⟩]

theorem mem_pieces {e r : Edge} {ms : List (Point ℤ)} :
    r ∈ pieces e ms ↔ ∃ m ∈ ms, r = ⟨e.p0, m⟩ ∨ r = ⟨m, e.p1⟩ := by
  simp [pieces]

theorem onSide_rev {e : Edge} {q : Point ℚ} (h : OnSide q e.side) : OnSide q e.reversed.side := by
  obtain ⟨s, s0, s1, hx, hy, hz⟩ := h
  simp only [Edge.side] at hx hy hz
  refine ⟨1 - s, by linarith, by linarith, ?_, ?_, ?_⟩ <;> simp only [Edge.side, Edge.reversed] <;> linarith

theorem onSide_part {o f : Edge} {u v : ℚ} (h : Part o f u v) (u0 : 0 ≤ u) (uv : u ≤ v) (v1 : v ≤ 1) {q : Point ℚ}
    (hq : OnSide q f.side) : OnSide q o.side := by
  obtain ⟨s, s0, s1, hs⟩ := hq
  refine ⟨u + s * (v - u), ?_, ?_, (isAt_part h _ _).1 hs⟩
  · have := mul_nonneg s0 (sub_nonneg.2 uv); linarith
  · have := mul_le_of_le_one_left (sub_nonneg.2 uv) s1; linarith

/-- `q` is covered by an edge of the list that runs into the direction of `d`. -/
def CovDir (S : List Edge) (d : Point ℤ × Point ℤ) (q : Point ℚ) : Prop :=
  ∃ e ∈ S, SameDirection d e.side ∧ OnSide q e.side

/-- Replacing an edge by its parts changes nothing in what is covered. -/
theorem covDir_split {S T : List Edge} {e : Edge} {ms : List (Point ℤ)} (he : e ∈ S) (hms : ms ≠ [])
    (hmid : ∀ m ∈ ms, Mid e m) (hT : ∀ r, r ∈ T ↔ (r ∈ S ∧ r ≠ e) ∨ r ∈ pieces e ms) (d : Point ℤ × Point ℤ)
    (q : Point ℚ) : CovDir T d q ↔ CovDir S d q := by
  constructor
  · rintro ⟨r, hr, ⟨k, k0, hk⟩, hq⟩
    rcases (hT r).1 hr with ⟨h, _⟩ | h
    · exact ⟨r, h, ⟨k, k0, hk⟩, hq⟩
    · obtain ⟨m, hm, hrm⟩ := mem_pieces.1 h
      obtain ⟨_, s, s0, s1, hs⟩ := hmid m hm
      rcases hrm with rfl | rfl
      · have hp := Mid.part1 hs
        refine ⟨e, he, ⟨(s - 0)⁻¹ * k, mul_pos (inv_pos.2 (by linarith)) k0,
          hk.trans (hp.multiple.inv (by linarith))⟩, onSide_part hp le_rfl s0.le s1.le hq⟩
      · have hp := Mid.part2 hs
        refine ⟨e, he, ⟨(1 - s)⁻¹ * k, mul_pos (inv_pos.2 (by linarith)) k0,
          hk.trans (hp.multiple.inv (by linarith))⟩, onSide_part hp s0.le s1.le le_rfl hq⟩
  · rintro ⟨r, hr, ⟨k, k0, hk⟩, hq⟩
    by_cases hre : r = e
    · subst hre
      obtain ⟨m, hm⟩ := List.exists_mem_of_ne_nil ms hms
      obtain ⟨_, s, s0, s1, hs⟩ := hmid m hm
      obtain ⟨t, t0, t1, ht⟩ := hq
      rcases le_total t s with hts | hts
      · refine ⟨⟨r.p0, m⟩, (hT _).2 (Or.inr (mem_pieces.2 ⟨m, hm, Or.inl rfl⟩)),
          ⟨(s - 0) * k, mul_pos (by linarith) k0, hk.trans (Mid.part1 hs).multiple⟩, t / s, div_nonneg t0 s0.le,
          (div_le_one s0).2 hts, (isAt_part (Mid.part1 hs) _ _).2 ?_⟩
        have : 0 + t / s * (s - 0) = t := by field_simp; ring
        rw [this]
        exact ht
      · have h1s : 0 < 1 - s := by linarith
        refine ⟨⟨m, r.p1⟩, (hT _).2 (Or.inr (mem_pieces.2 ⟨m, hm, Or.inr rfl⟩)),
          ⟨(1 - s) * k, mul_pos (by linarith) k0, hk.trans (Mid.part2 hs).multiple⟩, (t - s) / (1 - s),
          div_nonneg (by linarith) h1s.le, (div_le_one h1s).2 (by linarith), (isAt_part (Mid.part2 hs) _ _).2 ?_⟩
        have : s + (t - s) / (1 - s) * (1 - s) = t := by field_simp; ring
        rw [this]
        exact ht
    · exact ⟨r, (hT r).2 (Or.inl ⟨hr, hre⟩), ⟨k, k0, hk⟩, hq⟩

/-! ### Edges that can occur -/

/-- `p` is an end of an original edge parallel to `e`. -/
def EndOf (O : List Edge) (e : Edge) (p : Point ℤ) : Prop :=
  ∃ o ∈ O, (p = o.p0 ∨ p = o.p1) ∧ ∃ k : ℚ, k ≠ 0 ∧ Multiple k e.side o.side

/-- An edge that can occur while the original edges `O` are split. -/
structure Good (O : List Edge) (e : Edge) : Prop where
  sub : ∃ o ∈ O, ∃ u v : ℚ, 0 ≤ u ∧ u < v ∧ v ≤ 1 ∧ Part o e u v
  end0 : EndOf O e e.p0
  end1 : EndOf O e e.p1

theorem good_self {O : List Edge} {e : Edge} (h : e ∈ O) : Good O e :=
  ⟨⟨e, h, 0, 1, le_rfl, by norm_num, le_rfl, part_self e⟩,
    ⟨e, h, Or.inl rfl, 1, by norm_num, by simp [Multiple]⟩, ⟨e, h, Or.inr rfl, 1, by norm_num, by simp [Multiple]⟩⟩

theorem EndOf.congr {O : List Edge} {e f : Edge} {p : Point ℤ} {k : ℚ} (hk : k ≠ 0)
    (h : Multiple k f.side e.side) (he : EndOf O e p) : EndOf O f p := by
  obtain ⟨o, ho, hp, l, hl, hm⟩ := he
  exact ⟨o, ho, hp, l * k, mul_ne_zero hl hk, h.trans hm⟩

/-- A vector product of zero and a scalar product that is not zero: the edges are parallel. -/
theorem shorter_multiple {e f : Edge} (hs : shorter e f = true) : ∃ k : ℚ, k ≠ 0 ∧ Multiple k e.side f.side := by
  obtain ⟨hc, hd, hl⟩ := (shorter_iff e f).1 hs
  obtain ⟨k, k0, k1, hx, hy, hz⟩ := antiparallel_factor _ _ hc hd hl
  simp only [Edge.vec] at hx hy hz
  push_cast at hx hy hz
  exact ⟨-k, by linarith, hx, hy, hz⟩

theorem good_piece1 {O : List Edge} {e : Edge} {m : Point ℤ} (he : Good O e) (hm : Mid e m) (hend : EndOf O e m) :
    Good O ⟨e.p0, m⟩ := by
  obtain ⟨_, s, s0, s1, hs⟩ := hm
  obtain ⟨o, ho, u, v, u0, uv, v1, hp⟩ := he.sub
  have hmul : Multiple (s - 0)⁻¹ (Edge.side ⟨e.p0, m⟩) e.side := (Mid.part1 hs).multiple.inv (by linarith)
  have hne : (s - 0)⁻¹ ≠ 0 := inv_ne_zero (by linarith)
  refine ⟨⟨o, ho, _, _, ?_, ?_, ?_, hp.trans (Mid.part1 hs)⟩, he.end0.congr hne hmul, hend.congr hne hmul⟩
  · linarith
  · have : 0 < s * (v - u) := mul_pos s0 (by linarith)
    linarith
  · have : s * (v - u) ≤ v - u := mul_le_of_le_one_left (by linarith) s1.le
    linarith

theorem good_piece2 {O : List Edge} {e : Edge} {m : Point ℤ} (he : Good O e) (hm : Mid e m) (hend : EndOf O e m) :
    Good O ⟨m, e.p1⟩ := by
  obtain ⟨_, s, s0, s1, hs⟩ := hm
  obtain ⟨o, ho, u, v, u0, uv, v1, hp⟩ := he.sub
  have hmul : Multiple (1 - s)⁻¹ (Edge.side ⟨m, e.p1⟩) e.side := (Mid.part2 hs).multiple.inv (by linarith)
  have hne : (1 - s)⁻¹ ≠ 0 := inv_ne_zero (by linarith)
  refine ⟨⟨o, ho, _, _, ?_, ?_, ?_, hp.trans (Mid.part2 hs)⟩, hend.congr hne hmul, he.end1.congr hne hmul⟩
  · have : 0 < s * (v - u) := mul_pos s0 (by linarith)
    linarith
  · have : 0 < (1 - s) * (v - u) := mul_pos (by linarith) (by linarith)
    linarith
  · linarith

/-! ### The state -/

/-- Invariant of the rounds. -/
structure Inv (O : List Edge) (st : St) : Prop where
  nodup : st.edges.Nodup
  in1 : ∀ e ∈ st.edges, e ∈ st.byP1.getD e.p0 []
  in2 : ∀ e ∈ st.edges, e ∈ st.byP2.getD e.p1 []
  key1 : ∀ p, ∀ e ∈ st.byP1.getD p [], e.p0 = p ∧ Good O e
  key2 : ∀ p, ∀ e ∈ st.byP2.getD p [], e.p1 = p ∧ Good O e
  cov : ∀ d q, CovDir st.edges d q ↔ CovDir O d q

theorem Inv.good {O : List Edge} {st : St} (h : Inv O st) {e : Edge} (he : e ∈ st.edges) : Good O e :=
  (h.key1 _ e (h.in1 e he)).2

/-! ### The substitutions of a round -/

/-- What the substitutions of a round satisfy. -/
structure SubstOk (O : List Edge) (es : List Edge) (s : Dict Edge (List Edge)) : Prop where
  nodup : s.keys.Nodup
  ok : ∀ e r, s.get? e = some r → e ∈ es ∧ ∃ ms, ms ≠ [] ∧ r = pieces e ms ∧ ∀ m ∈ ms, Mid e m ∧ EndOf O e m

theorem substOk_upd {O es : List Edge} {s : Dict Edge (List Edge)} (h : SubstOk O es s) {e : Edge} (he : e ∈ es)
    {m : Point ℤ} (hm : Mid e m) (hend : EndOf O e m) :
    SubstOk O es (s.upd e [] (· ++ [⟨e.p0, m⟩, ⟨m, e.p1⟩])) := by
  refine ⟨Dict.nodup_keys_upd _ _ _ _ h.nodup, ?_⟩
  intro e' r hr
  rw [Dict.get?_upd] at hr
  split_ifs at hr with hee
  · subst hee
    refine ⟨he, ?_⟩
    rcases hg : s.get? e with _ | r0
    · have hd : s.getD e [] = [] := by simp [Dict.getD, hg]
      simp only [hd, List.nil_append, Option.some.injEq] at hr
      subst hr
      exact ⟨[m], by simp, by simp [pieces], by simpa using ⟨hm, hend⟩⟩
    · obtain ⟨_, ms, hms, rfl, hall⟩ := h.ok e r0 hg
      have hd : s.getD e [] = pieces e ms := by simp [Dict.getD, hg]
      simp only [hd, Option.some.injEq] at hr
      subst hr
      refine ⟨ms ++ [m], by simp, by simp [pieces], ?_⟩
      intro m' hm'
      rcases List.mem_append.1 hm' with h1 | h1
      · exact hall m' h1
      · rw [List.mem_singleton.1 h1]
        exact ⟨hm, hend⟩
  · exact h.ok e' r hr

theorem substOk_fold1 {O es : List Edge} {st : St} (hinv : Inv O st) {e : Edge} (he : e ∈ es) (l : List Edge)
    (hl : ∀ f ∈ l, f ∈ st.byP2.getD e.p0 []) (s : Dict Edge (List Edge)) (h : SubstOk O es s) :
    SubstOk O es (l.foldl (subst1 e) s) := by
  induction l generalizing s with
  | nil => exact h
  | cons f l ih =>
    refine ih (fun g hg => hl g (by simp [hg])) _ ?_
    unfold subst1
    split_ifs with hs
    · obtain ⟨h1, h2⟩ := hinv.key2 _ f (hl f (by simp))
      obtain ⟨k, k0, hk⟩ := shorter_multiple hs
      exact substOk_upd h he (mid1 hs h1) (h2.end0.congr k0 hk)
    · exact h

theorem substOk_fold2 {O es : List Edge} {st : St} (hinv : Inv O st) {e : Edge} (he : e ∈ es) (l : List Edge)
    (hl : ∀ f ∈ l, f ∈ st.byP1.getD e.p1 []) (s : Dict Edge (List Edge)) (h : SubstOk O es s) :
    SubstOk O es (l.foldl (subst2 e) s) := by
  induction l generalizing s with
  | nil => exact h
  | cons f l ih =>
    refine ih (fun g hg => hl g (by simp [hg])) _ ?_
    unfold subst2
    split_ifs with hs
    · obtain ⟨h1, h2⟩ := hinv.key1 _ f (hl f (by simp))
      obtain ⟨k, k0, hk⟩ := shorter_multiple hs
      exact substOk_upd h he (mid2 hs h1) (h2.end1.congr k0 hk)
    · exact h

theorem substOk_substs {O es : List Edge} {st : St} (hinv : Inv O st) : SubstOk O es (substs es st) := by
  have h1 : ∀ (l : List Edge) (s : Dict Edge (List Edge)), (∀ e ∈ l, e ∈ es) → SubstOk O es s →
      SubstOk O es (l.foldl (fun s e => (st.byP2.getD e.p0 []).foldl (subst1 e) s) s) := by
    intro l
    induction l with
    | nil => intro s _ h; exact h
    | cons e l ih =>
      intro s hl h
      exact ih _ (fun g hg => hl g (by simp [hg])) (substOk_fold1 hinv (hl e (by simp)) _ (fun _ h => h) _ h)
  have h2 : ∀ (l : List Edge) (s : Dict Edge (List Edge)), (∀ e ∈ l, e ∈ es) → SubstOk O es s →
      SubstOk O es (l.foldl (fun s e => (st.byP1.getD e.p1 []).foldl (subst2 e) s) s) := by
    intro l
    induction l with
    | nil => intro s _ h; exact h
    | cons e l ih =>
      intro s hl h
      exact ih _ (fun g hg => hl g (by simp [hg])) (substOk_fold2 hinv (hl e (by simp)) _ (fun _ h => h) _ h)
  refine h2 es _ (fun _ h => h) (h1 es [] (fun _ h => h) ⟨by simp, by simp⟩)

/-! A key stays a key. -/

theorem mem_keys_fold1 (e k : Edge) (l : List Edge) (s : Dict Edge (List Edge)) (h : k ∈ s.keys) :
    k ∈ Dict.keys (l.foldl (subst1 e) s) := by
  induction l generalizing s with
  | nil => exact h
  | cons f l ih =>
    refine ih _ ?_
    unfold subst1
    split_ifs
    · exact (Dict.mem_keys_upd _ _ _ _ _).2 (Or.inr h)
    · exact h

theorem mem_keys_fold2 (e k : Edge) (l : List Edge) (s : Dict Edge (List Edge)) (h : k ∈ s.keys) :
    k ∈ Dict.keys (l.foldl (subst2 e) s) := by
  induction l generalizing s with
  | nil => exact h
  | cons f l ih =>
    refine ih _ ?_
    unfold subst2
    split_ifs
    · exact (Dict.mem_keys_upd _ _ _ _ _).2 (Or.inr h)
    · exact h

theorem mem_keys_fold1_of (e f : Edge) (l : List Edge) (s : Dict Edge (List Edge)) (hf : f ∈ l)
    (hs : shorter e f = true) : e ∈ Dict.keys (l.foldl (subst1 e) s) := by
  induction l generalizing s with
  | nil => simp at hf
  | cons g l ih =>
    rcases List.mem_cons.1 hf with rfl | hf
    · refine mem_keys_fold1 e e l (subst1 e s f) ?_
      unfold subst1
      rw [if_pos hs]
      exact (Dict.mem_keys_upd _ _ _ _ _).2 (Or.inl rfl)
    · exact ih _ hf

theorem mem_keys_fold2_of (e f : Edge) (l : List Edge) (s : Dict Edge (List Edge)) (hf : f ∈ l)
    (hs : shorter e f = true) : e ∈ Dict.keys (l.foldl (subst2 e) s) := by
  induction l generalizing s with
  | nil => simp at hf
  | cons g l ih =>
    rcases List.mem_cons.1 hf with rfl | hf
    · refine mem_keys_fold2 e e l (subst2 e s f) ?_
      unfold subst2
      rw [if_pos hs]
      exact (Dict.mem_keys_upd _ _ _ _ _).2 (Or.inl rfl)
    · exact ih _ hf

theorem keys_outer {β : Type} (F : Dict Edge (List Edge) → β → Dict Edge (List Edge)) (k : Edge)
    (hF : ∀ s b, k ∈ Dict.keys s → k ∈ Dict.keys (F s b)) (l : List β) (s : Dict Edge (List Edge))
    (h : k ∈ s.keys) : k ∈ Dict.keys (l.foldl F s) := by
  induction l generalizing s with
  | nil => exact h
  | cons b l ih => exact ih _ (hF _ _ h)

theorem keys_outer_of {β : Type} (F : Dict Edge (List Edge) → β → Dict Edge (List Edge)) (k : Edge)
    (hF : ∀ s b, k ∈ Dict.keys s → k ∈ Dict.keys (F s b)) (l : List β) (b : β) (hb : b ∈ l)
    (hk : ∀ s, k ∈ Dict.keys (F s b)) (s : Dict Edge (List Edge)) : k ∈ Dict.keys (l.foldl F s) := by
  induction l generalizing s with
  | nil => simp at hb
  | cons c l ih =>
    rcases List.mem_cons.1 hb with rfl | hb
    · exact keys_outer F k hF l _ (hk s)
    · exact ih hb _

/-- When nothing is substituted, no edge has a shorter antiparallel one at either of its ends. -/
theorem substs_nil {es : List Edge} {st : St} (h : substs es st = []) (e : Edge) (he : e ∈ es) :
    (∀ f ∈ st.byP2.getD e.p0 [], shorter e f = false) ∧ ∀ f ∈ st.byP1.getD e.p1 [], shorter e f = false := by
  have hno : e ∉ Dict.keys (substs es st) := by rw [h]; simp
  constructor
  · intro f hf
    by_contra hc
    rw [Bool.not_eq_false] at hc
    apply hno
    unfold substs
    refine keys_outer _ e (fun s b hk => mem_keys_fold2 _ _ _ _ hk) _ _ ?_
    exact keys_outer_of (fun s e => (st.byP2.getD e.p0 []).foldl (subst1 e) s) e
      (fun s b hk => mem_keys_fold1 _ _ _ _ hk) _ e he
      (fun s => mem_keys_fold1_of _ f _ _ hf hc) _
  · intro f hf
    by_contra hc
    rw [Bool.not_eq_false] at hc
    apply hno
    unfold substs
    exact keys_outer_of (fun s e => (st.byP1.getD e.p1 []).foldl (subst2 e) s) e
      (fun s b hk => mem_keys_fold2 _ _ _ _ hk) _ e he
      (fun s => mem_keys_fold2_of _ f _ _ hf hc) _

/-! ### Applying a substitution -/

theorem addEdges_edges (l : List Edge) (st : St) (r : Edge) :
    r ∈ (l.foldl addEdge st).edges ↔ r ∈ st.edges ∨ r ∈ l := by
  induction l generalizing st with
  | nil => simp
  | cons a l ih =>
    rw [List.foldl_cons, ih]
    unfold addEdge
    by_cases ha : a ∈ st.edges
    · rw [if_pos ha]
      simp only [List.mem_cons]
      constructor
      · rintro (h | h)
        · exact Or.inl h
        · exact Or.inr (Or.inr h)
      · rintro (h | rfl | h)
        · exact Or.inl h
        · exact Or.inl ha
        · exact Or.inr h
    · rw [if_neg ha]
      simp only [List.mem_append, List.mem_cons, List.not_mem_nil, or_false]
      tauto

theorem addEdges_nodup (l : List Edge) (st : St) (h : st.edges.Nodup) : (l.foldl addEdge st).edges.Nodup := by
  induction l generalizing st with
  | nil => exact h
  | cons a l ih =>
    refine ih _ ?_
    unfold addEdge
    by_cases ha : a ∈ st.edges
    · simpa [ha] using h
    · simp only [if_neg ha]
      exact List.nodup_append.2 ⟨h, by simp, by
        intro x hx y hy
        rw [List.mem_singleton.1 hy]
        rintro rfl
        exact ha hx⟩

theorem addEdges_by1 (l : List Edge) (st : St) (p : Point ℤ) (r : Edge) :
    r ∈ (l.foldl addEdge st).byP1.getD p [] ↔ r ∈ st.byP1.getD p [] ∨ (r ∈ l ∧ r.p0 = p) := by
  induction l generalizing st with
  | nil => simp
  | cons a l ih =>
    rw [List.foldl_cons, ih]
    unfold addEdge
    simp only [Dict.getD_upd]
    by_cases hp : a.p0 = p
    · rw [if_pos hp]
      subst hp
      simp only [List.mem_append, List.mem_cons, List.not_mem_nil, or_false]
      constructor
      · rintro ((h | rfl) | ⟨h, h'⟩)
        · exact Or.inl h
        · exact Or.inr ⟨Or.inl rfl, rfl⟩
        · exact Or.inr ⟨Or.inr h, h'⟩
      · rintro (h | ⟨rfl | h, h'⟩)
        · exact Or.inl (Or.inl h)
        · exact Or.inl (Or.inr rfl)
        · exact Or.inr ⟨h, h'⟩
    · rw [if_neg hp]
      simp only [List.mem_cons]
      constructor
      · rintro (h | ⟨h, h'⟩)
        · exact Or.inl h
        · exact Or.inr ⟨Or.inr h, h'⟩
      · rintro (h | ⟨rfl | h, h'⟩)
        · exact Or.inl h
        · exact absurd h' hp
        · exact Or.inr ⟨h, h'⟩

theorem addEdges_by2 (l : List Edge) (st : St) (p : Point ℤ) (r : Edge) :
    r ∈ (l.foldl addEdge st).byP2.getD p [] ↔ r ∈ st.byP2.getD p [] ∨ (r ∈ l ∧ r.p1 = p) := by
  induction l generalizing st with
  | nil => simp
  | cons a l ih =>
    rw [List.foldl_cons, ih]
    unfold addEdge
    simp only [Dict.getD_upd]
    by_cases hp : a.p1 = p
    · rw [if_pos hp]
      subst hp
      simp only [List.mem_append, List.mem_cons, List.not_mem_nil, or_false]
      constructor
      · rintro ((h | rfl) | ⟨h, h'⟩)
        · exact Or.inl h
        · exact Or.inr ⟨Or.inl rfl, rfl⟩
        · exact Or.inr ⟨Or.inr h, h'⟩
      · rintro (h | ⟨rfl | h, h'⟩)
        · exact Or.inl (Or.inl h)
        · exact Or.inl (Or.inr rfl)
        · exact Or.inr ⟨h, h'⟩
    · rw [if_neg hp]
      simp only [List.mem_cons]
      constructor
      · rintro (h | ⟨h, h'⟩)
        · exact Or.inl h
        · exact Or.inr ⟨Or.inr h, h'⟩
      · rintro (h | ⟨rfl | h, h'⟩)
        · exact Or.inl h
        · exact absurd h' hp
        · exact Or.inr ⟨h, h'⟩

/-- A substitution whose edge is in the set succeeds, keeps the invariant and replaces the edge by its parts. -/
theorem applySubst_ok {O : List Edge} {st : St} (hinv : Inv O st) {e : Edge} (he : e ∈ st.edges)
    {ms : List (Point ℤ)} (hms : ms ≠ []) (hall : ∀ m ∈ ms, Mid e m ∧ EndOf O e m) :
    ∃ st', applySubst st (e, pieces e ms) = .ok st' ∧ Inv O st' ∧
      ∀ r, r ∈ st'.edges ↔ (r ∈ st.edges ∧ r ≠ e) ∨ r ∈ pieces e ms := by
  have hmem : ∀ r, r ∈ st.edges.erase e ↔ (r ∈ st.edges ∧ r ≠ e) := by
    intro r
    rw [hinv.nodup.mem_erase_iff]
    tauto
  have hgood := hinv.good he
  have hpg : ∀ r ∈ pieces e ms, Good O r := by
    intro r hr
    obtain ⟨m, hm, rfl | rfl⟩ := mem_pieces.1 hr
    · exact good_piece1 hgood (hall m hm).1 (hall m hm).2
    · exact good_piece2 hgood (hall m hm).1 (hall m hm).2
  refine ⟨(pieces e ms).foldl addEdge
      { edges := st.edges.erase e
        byP1 := st.byP1.upd e.p0 [] (·.erase e)
        byP2 := st.byP2.upd e.p1 [] (·.erase e) }, ?_, ?_, ?_⟩
  · unfold applySubst
    rw [if_neg (not_not.2 (hinv.in1 e he)), if_neg (not_not.2 (hinv.in2 e he)), if_neg (not_not.2 he)]
  · refine ⟨addEdges_nodup _ _ (hinv.nodup.erase _), ?_, ?_, ?_, ?_, ?_⟩
    · intro r hr
      rw [addEdges_by1]
      rcases (addEdges_edges _ _ _).1 hr with h | h
      · left
        obtain ⟨h1, h2⟩ := (hmem r).1 h
        simp only [Dict.getD_upd]
        split_ifs with hp
        · rw [hp]
          exact (List.mem_erase_of_ne h2).2 (hinv.in1 r h1)
        · exact hinv.in1 r h1
      · exact Or.inr ⟨h, rfl⟩
    · intro r hr
      rw [addEdges_by2]
      rcases (addEdges_edges _ _ _).1 hr with h | h
      · left
        obtain ⟨h1, h2⟩ := (hmem r).1 h
        simp only [Dict.getD_upd]
        split_ifs with hp
        · rw [hp]
          exact (List.mem_erase_of_ne h2).2 (hinv.in2 r h1)
        · exact hinv.in2 r h1
      · exact Or.inr ⟨h, rfl⟩
    · intro p r hr
      rcases (addEdges_by1 _ _ _ _).1 hr with h | ⟨h, h'⟩
      · simp only [Dict.getD_upd] at h
        split_ifs at h with hp
        · exact hp ▸ hinv.key1 _ r (List.mem_of_mem_erase h)
        · exact hinv.key1 _ r h
      · exact ⟨h', hpg r h⟩
    · intro p r hr
      rcases (addEdges_by2 _ _ _ _).1 hr with h | ⟨h, h'⟩
      · simp only [Dict.getD_upd] at h
        split_ifs at h with hp
        · exact hp ▸ hinv.key2 _ r (List.mem_of_mem_erase h)
        · exact hinv.key2 _ r h
      · exact ⟨h', hpg r h⟩
    · intro d q
      rw [← hinv.cov d q]
      refine covDir_split he hms (fun m hm => (hall m hm).1) ?_ d q
      intro r
      rw [addEdges_edges, hmem]
  · intro r
    rw [addEdges_edges, hmem]

end Verif.Checker
