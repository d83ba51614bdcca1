import Verif.Checker.Complete

/-!
# C71: the geometry check ends, and reports nothing exactly for closed surfaces

`Closed`, `Simple` and `sides` are in `Spec`.
-/

namespace Verif.Checker

open Verif.Finalize (Point Triangle HDielKey HCondKey)

/-! ### Edges and sides -/

theorem normedEdges_sides (dbu : ℚ) (tris : List (Triangle ℚ)) :
    (normedEdges dbu tris).map Edge.side = sides dbu tris := by
  have h : ∀ t : Triangle ℚ, (triEdges dbu t).map Edge.side = sidesOf dbu t := by
    intro t
    simp [triEdges, sidesOf, List.range_succ, corner, Edge.side, normed, grid]
  unfold normedEdges sides
  rw [List.map_flatMap]
  exact congrArg (fun f => List.flatMap f tris) (funext h)

theorem collect_fold (l : List Edge) (s : List Edge × List Err) (hs : s.1.Nodup) :
    (l.foldl collect s).1.Nodup ∧ (∀ e, e ∈ (l.foldl collect s).1 ↔ e ∈ s.1 ∨ e ∈ l) ∧
      ((l.foldl collect s).2 = [] ↔ s.2 = [] ∧ l.Nodup ∧ ∀ e ∈ l, e ∉ s.1) ∧
      ((l.Nodup ∧ ∀ e ∈ l, e ∉ s.1) → (l.foldl collect s).1 = s.1 ++ l) := by
  induction l generalizing s with
  | nil => simp [hs]
  | cons a l ih =>
    rw [List.foldl_cons]
    by_cases ha : a ∈ s.1
    · have hc : collect s a = (s.1, s.2 ++ [.duplicate a]) := by rw [collect, if_pos ha]
      rw [hc]
      obtain ⟨h1, h2, h3, h4⟩ := ih (s.1, s.2 ++ [.duplicate a]) hs
      refine ⟨h1, ?_, ?_, ?_⟩
      · intro e
        rw [h2, List.mem_cons]
        constructor
        · rintro (h | h)
          · exact Or.inl h
          · exact Or.inr (Or.inr h)
        · rintro (h | rfl | h)
          · exact Or.inl h
          · exact Or.inl ha
          · exact Or.inr h
      · rw [h3]
        simp [ha]
      · rintro ⟨_, h⟩
        exact absurd ha (h a (by simp))
    · have hc : collect s a = (s.1 ++ [a], s.2) := by rw [collect, if_neg ha]
      rw [hc]
      have hnd : (s.1 ++ [a]).Nodup := List.nodup_append.2 ⟨hs, by simp, by
        intro x hx y hy
        rw [List.mem_singleton.1 hy]
        rintro rfl
        exact ha hx⟩
      obtain ⟨h1, h2, h3, h4⟩ := ih (s.1 ++ [a], s.2) hnd
      refine ⟨h1, ?_, ?_, ?_⟩
      · intro e
        rw [h2]
        simp only [List.mem_append, List.mem_cons, List.not_mem_nil, or_false]
        tauto
      · rw [h3]
        simp only [List.mem_append, List.mem_cons, List.not_mem_nil, or_false, List.nodup_cons, not_or,
          forall_eq_or_imp]
        constructor
        · rintro ⟨g1, g2, g3⟩
          exact ⟨g1, ⟨fun hm => (g3 a hm).2 rfl, g2⟩, ha, fun e he => (g3 e he).1⟩
        · rintro ⟨g1, ⟨g2, g3⟩, _, g4⟩
          exact ⟨g1, g3, fun e he => ⟨g4 e he, fun hc => g2 (hc ▸ he)⟩⟩
      · rintro ⟨g1, g2⟩
        rw [List.nodup_cons] at g1
        rw [h4 ⟨g1.2, ?_⟩, List.append_assoc]
        · rfl
        · intro e he
          simp only [List.mem_append, List.mem_cons, List.not_mem_nil, or_false, not_or]
          exact ⟨g2 e (by simp [he]), fun hc => g1.1 (hc ▸ he)⟩

theorem rounds_mono {ord : ℕ → List Edge → List Edge} (fuel : ℕ) :
    ∀ (i : ℕ) (st : St) (r : Except String St), rounds ord fuel i st = some r →
      ∀ n, rounds ord (fuel + n) i st = some r := by
  induction fuel with
  | zero => intro i st r h; simp [rounds] at h
  | succ fuel ih =>
    intro i st r h n
    rw [Nat.add_right_comm]
    simp only [rounds] at h ⊢
    by_cases hl : (substs (ord (i + 1) st.edges) st).length = 0
    · rw [if_pos hl] at h ⊢
      exact h
    · rw [if_neg hl] at h ⊢
      cases hf : (substs (ord (i + 1) st.edges) st).foldlM applySubst st with
      | error m => rw [hf] at h; exact h
      | ok st' => rw [hf] at h; exact ih _ _ _ h n

theorem nodup_sides (dbu : ℚ) (tris : List (Triangle ℚ)) :
    (normedEdges dbu tris).Nodup ↔ (sides dbu tris).Nodup := by
  rw [← normedEdges_sides]
  exact (List.nodup_map_iff (fun a b h => side_inj h)).symm

/-- What the check of one surface amounts to: a final state in which nothing is left to split. -/
theorem checkTris_end {ord : ℕ → List Edge → List Edge} (hord : ∀ n l, (ord n l).Perm l) (dbu : ℚ)
    (tris : List (Triangle ℚ)) :
    ∃ O st, O = ((normedEdges dbu tris).foldl collect ([], [])).1 ∧ O.Nodup ∧ Inv O st ∧ Fixed st ∧
      ∃ n, ∀ fuel, n ≤ fuel → checkTris ord fuel dbu tris =
        some (.ok (((normedEdges dbu tris).foldl collect ([], [])).2 ++
          (st.edges.filter fun e => decide (e.reversed ∉ st.edges)).map Err.openSurface)) := by
  obtain ⟨h1, _⟩ := collect_fold (normedEdges dbu tris) ([], []) (by simp)
  obtain ⟨st, hinv, hfix, n, hn⟩ := splitEdges_end hord _ h1
  refine ⟨_, st, rfl, h1, hinv, hfix, n, ?_⟩
  intro fuel hf
  simp only [checkTris, hn fuel hf]
  rfl

theorem checkTris_mono {ord : ℕ → List Edge → List Edge} {fuel : ℕ} {dbu : ℚ} {tris : List (Triangle ℚ)}
    {r : Except String (List Err)} (h : checkTris ord fuel dbu tris = some r) (n : ℕ) :
    checkTris ord (fuel + n) dbu tris = some r := by
  simp only [checkTris, splitEdges, Option.map_eq_some_iff] at h ⊢
  obtain ⟨x, hx, rfl⟩ := h
  exact ⟨x, rounds_mono _ _ _ _ hx n, rfl⟩

/-- The check of any surface ends, whatever the iteration order of the sets, and without an exception. -/
theorem check_ends (ord : ℕ → List Edge → List Edge) (hord : ∀ n l, (ord n l).Perm l) (dbu : ℚ)
    (tris : List (Triangle ℚ)) :
    ∃ errs n, ∀ fuel, n ≤ fuel → checkTris ord fuel dbu tris = some (.ok errs) := by
  obtain ⟨O, st, _, _, _, _, n, hn⟩ := checkTris_end hord dbu tris
  exact ⟨_, n, hn⟩

/-- A surface without findings has no side listed twice and no open boundary anywhere. -/
theorem check_sound (ord : ℕ → List Edge → List Edge) (hord : ∀ n l, (ord n l).Perm l) (fuel : ℕ) (dbu : ℚ)
    (tris : List (Triangle ℚ)) (h : checkTris ord fuel dbu tris = some (.ok [])) :
    (sides dbu tris).Nodup ∧ Closed (sides dbu tris) := by
  obtain ⟨O, st, hO, hnd, hinv, hfix, n, hn⟩ := checkTris_end hord dbu tris
  have h1 := checkTris_mono h n
  rw [hn _ (Nat.le_add_left _ _)] at h1
  simp only [Option.some.injEq, Except.ok.injEq, List.append_eq_nil_iff, List.map_eq_nil_iff,
    List.filter_eq_nil_iff, decide_eq_true_eq, not_not] at h1
  obtain ⟨h2, h3⟩ := h1
  obtain ⟨_, _, h4, h5⟩ := collect_fold (normedEdges dbu tris) ([], []) (by simp)
  have h6 := (h4.1 h2).2
  have h7 : O = normedEdges dbu tris := by rw [hO, h5 h6]; simp
  subst h7
  refine ⟨(nodup_sides _ _).1 h6.1, ?_⟩
  rw [← normedEdges_sides]
  exact closed_of_reversed hinv h3

/-- A closed surface whose sides of the same direction do not overlap has no findings: no false alarm. -/
theorem check_complete (ord : ℕ → List Edge → List Edge) (hord : ∀ n l, (ord n l).Perm l) (dbu : ℚ)
    (tris : List (Triangle ℚ)) (hs : Simple (sides dbu tris)) (hc : Closed (sides dbu tris)) :
    ∃ n, ∀ fuel, n ≤ fuel → checkTris ord fuel dbu tris = some (.ok []) := by
  obtain ⟨O, st, hO, hnd, hinv, hfix, n, hn⟩ := checkTris_end hord dbu tris
  obtain ⟨_, _, h4, h5⟩ := collect_fold (normedEdges dbu tris) ([], []) (by simp)
  have h6 := (nodup_sides dbu tris).2 hs.1
  have h8 : ((normedEdges dbu tris).foldl collect ([], [])).2 = [] := h4.2 ⟨rfl, h6, by simp⟩
  have h7 : O = normedEdges dbu tris := by rw [hO, h5 ⟨h6, by simp⟩]; simp
  subst h7
  rw [← normedEdges_sides] at hs hc
  refine ⟨n, fun fuel hf => ?_⟩
  rw [hn fuel hf, h8, List.nil_append]
  have : (st.edges.filter fun e => decide (e.reversed ∉ st.edges)) = [] := by
    rw [List.filter_eq_nil_iff]
    intro e he
    simpa using reversed_mem hinv hfix hs hc he
  rw [this]
  rfl

/-- For surfaces whose sides of the same direction do not overlap: no findings exactly when closed. -/
theorem check_iff (ord : ℕ → List Edge → List Edge) (hord : ∀ n l, (ord n l).Perm l) (dbu : ℚ)
    (tris : List (Triangle ℚ)) (hs : Simple (sides dbu tris)) :
    (∃ fuel, checkTris ord fuel dbu tris = some (.ok [])) ↔ Closed (sides dbu tris) :=
  ⟨fun ⟨fuel, h⟩ => (check_sound ord hord fuel dbu tris h).2,
    fun hc => (check_complete ord hord dbu tris hs hc).imp fun n hn => hn n le_rfl⟩

/-! ### The whole model -/

/-- The surface of a material: the triangles facing it, flipped where the material is inside, and the conductors
within it. -/
def materialSurface (diel : Dict HDielKey (List (Triangle ℚ))) (cond : Dict HCondKey (List (Triangle ℚ)))
    (m : String) : List (Triangle ℚ) :=
  (diel.flatMap fun kv =>
    if kv.1.outside = some m then kv.2
    else if kv.1.inside = some m then kv.2.map fun t => ⟨t.p2, t.p1, t.p0⟩
    else []) ++
  cond.flatMap fun kv => if kv.1.outside = some m then kv.2 else []

/-- The surface of a net: its triangles, flipped. -/
def netSurface (cond : Dict HCondKey (List (Triangle ℚ))) (n : String) : List (Triangle ℚ) :=
  cond.flatMap fun kv => if kv.1.netName = n then kv.2.map fun t => ⟨t.p2, t.p1, t.p0⟩ else []

theorem foldl_flatMap {α β : Type} (F : List β → α → List β) (f : α → List β)
    (hF : ∀ acc a, F acc a = acc ++ f a) (l : List α) (acc : List β) : l.foldl F acc = acc ++ l.flatMap f := by
  induction l generalizing acc with
  | nil => simp
  | cons a l ih => rw [List.foldl_cons, hF, ih]; simp

theorem collectDiel_eq (g : Gen) (m : String) : collectDiel g m = materialSurface g.diel g.cond m := by
  unfold collectDiel materialSurface
  rw [foldl_flatMap _ (dielPart m) (fun _ _ => rfl), List.nil_append,
    foldl_flatMap _ (fun kv : HCondKey × List (Triangle ℚ) => if kv.1.outside = some m then kv.2 else [])]
  · congr 1
    refine congrArg (fun f => List.flatMap f g.diel) (funext fun kv => ?_)
    unfold dielPart
    simp only [eq_comm (a := some m)]
    rfl
  · intro acc kv
    simp only [eq_comm (a := some m)]
    split_ifs <;> simp

theorem collectCond_eq (g : Gen) (n : String) : collectCond g n = netSurface g.cond n := by
  unfold collectCond netSurface
  rw [foldl_flatMap _ (fun kv : HCondKey × List (Triangle ℚ) =>
    if kv.1.netName = n then kv.2.map Triangle.reversed else [])]
  · rfl
  · intro acc kv
    split_ifs <;> simp

theorem checkStep_ok {ord : ℕ → List Edge → List Edge} {fuel : ℕ} {dbu : ℚ} {acc : Option (Except String ℕ)}
    {tris : List (Triangle ℚ)} {n : ℕ} : checkStep ord fuel dbu acc tris = some (.ok n) ↔
      ∃ k errs, acc = some (.ok k) ∧ checkTris ord fuel dbu tris = some (.ok errs) ∧ n = k + errs.length := by
  unfold checkStep
  rcases acc with _ | (m | k)
  · simp
  · simp
  · rcases h : checkTris ord fuel dbu tris with _ | (m | errs)
    · simp
    · simp
    · simp only [Option.some.injEq, Except.ok.injEq]
      constructor
      · rintro rfl
        exact ⟨k, errs, rfl, rfl, rfl⟩
      · rintro ⟨_, _, rfl, rfl, rfl⟩
        rfl

theorem checkFold_zero {ord : ℕ → List Edge → List Edge} {fuel : ℕ} {dbu : ℚ} (f : String → List (Triangle ℚ))
    (l : List String) (acc : Option (Except String ℕ)) :
    l.foldl (fun acc nn => checkStep ord fuel dbu acc (f nn)) acc = some (.ok 0) ↔
      acc = some (.ok 0) ∧ ∀ nn ∈ l, checkTris ord fuel dbu (f nn) = some (.ok []) := by
  induction l generalizing acc with
  | nil => simp
  | cons a l ih =>
    rw [List.foldl_cons, ih, checkStep_ok]
    constructor
    · rintro ⟨⟨k, errs, h1, h2, h3⟩, h4⟩
      have hk : k = 0 := by omega
      have he : errs = [] := List.length_eq_zero_iff.1 (by omega)
      subst hk he
      refine ⟨h1, ?_⟩
      intro nn hnn
      rcases List.mem_cons.1 hnn with rfl | h
      · exact h2
      · exact h4 nn h
    · rintro ⟨h1, h2⟩
      exact ⟨⟨0, [], h1, h2 a (by simp), rfl⟩, fun nn hnn => h2 nn (by simp [hnn])⟩

theorem check_zero_iff (ord : ℕ → List Edge → List Edge) (fuel : ℕ) (g : Gen) :
    check ord fuel g = some (.ok 0) ↔
      (∀ m ∈ g.materials, checkTris ord fuel g.dbu (materialSurface g.diel g.cond m) = some (.ok [])) ∧
      ∀ n ∈ g.netNames, checkTris ord fuel g.dbu (netSurface g.cond n) = some (.ok []) := by
  simp only [check, checkFold_zero, true_and, collectDiel_eq, collectCond_eq]

/-- C71: "No errors found" means that the surfaces of all materials and of all nets have no open boundary and no side
listed twice. -/
theorem check_clean (ord : ℕ → List Edge → List Edge) (hord : ∀ n l, (ord n l).Perm l) (fuel : ℕ) (g : Gen)
    (h : check ord fuel g = some (.ok 0)) :
    (∀ m ∈ g.materials, (sides g.dbu (materialSurface g.diel g.cond m)).Nodup ∧
      Closed (sides g.dbu (materialSurface g.diel g.cond m))) ∧
    ∀ n ∈ g.netNames, (sides g.dbu (netSurface g.cond n)).Nodup ∧ Closed (sides g.dbu (netSurface g.cond n)) := by
  obtain ⟨h1, h2⟩ := (check_zero_iff ord fuel g).1 h
  exact ⟨fun m hm => check_sound ord hord fuel _ _ (h1 m hm), fun n hn => check_sound ord hord fuel _ _ (h2 n hn)⟩

/-- C71: a model whose surfaces are closed, without overlapping sides of the same direction, has no findings. -/
theorem check_no_false_alarm (ord : ℕ → List Edge → List Edge) (hord : ∀ n l, (ord n l).Perm l) (g : Gen)
    (hm : ∀ m ∈ g.materials, Simple (sides g.dbu (materialSurface g.diel g.cond m)) ∧
      Closed (sides g.dbu (materialSurface g.diel g.cond m)))
    (hn : ∀ n ∈ g.netNames, Simple (sides g.dbu (netSurface g.cond n)) ∧
      Closed (sides g.dbu (netSurface g.cond n))) :
    ∃ k, ∀ fuel, k ≤ fuel → check ord fuel g = some (.ok 0) := by
  have aux : ∀ (f : String → List (Triangle ℚ)) (l : List String),
      (∀ x ∈ l, ∃ k, ∀ fuel, k ≤ fuel → checkTris ord fuel g.dbu (f x) = some (.ok [])) →
      ∃ k, ∀ fuel, k ≤ fuel → ∀ x ∈ l, checkTris ord fuel g.dbu (f x) = some (.ok []) := by
    intro f l
    induction l with
    | nil => intro _; exact ⟨0, by simp⟩
    | cons a l ih =>
      intro h
      obtain ⟨k1, hk1⟩ := h a (by simp)
      obtain ⟨k2, hk2⟩ := ih fun x hx => h x (by simp [hx])
      refine ⟨max k1 k2, fun fuel hf x hx => ?_⟩
      rcases List.mem_cons.1 hx with rfl | hx
      · exact hk1 fuel (le_trans (le_max_left _ _) hf)
      · exact hk2 fuel (le_trans (le_max_right _ _) hf) x hx
  obtain ⟨k1, h1⟩ := aux (materialSurface g.diel g.cond) g.materials fun m hmm =>
    check_complete ord hord g.dbu _ (hm m hmm).1 (hm m hmm).2
  obtain ⟨k2, h2⟩ := aux (netSurface g.cond) g.netNames fun n hnn =>
    check_complete ord hord g.dbu _ (hn n hnn).1 (hn n hnn).2
  refine ⟨max k1 k2, fun fuel hf => (check_zero_iff ord fuel g).2 ⟨?_, ?_⟩⟩
  · exact h1 fuel (le_trans (le_max_left _ _) hf)
  · exact h2 fuel (le_trans (le_max_right _ _) hf)

/-- Rounding does not move points of the grid. -/
theorem grid_exact (dbu : ℚ) (h : 0 < dbu) (p : Point ℤ) : grid dbu ⟨p.x * dbu, p.y * dbu, p.z * dbu⟩ = p := by
  have key : ∀ n : ℤ, ⌊(n : ℚ) * dbu / dbu + 1 / 2⌋ = n := by
    intro n
    rw [mul_div_assoc, div_self h.ne', mul_one, Int.floor_eq_iff]
    constructor <;> linarith
  cases p
  simp only [grid, key]

/-! ### Concrete cases -/

/-- The sets are iterated in the order of the list. -/
def ord0 (_ : ℕ) (l : List Edge) : List Edge := l

theorem ord0_perm (n : ℕ) (l : List Edge) : (ord0 n l).Perm l := List.Perm.refl _

/-- The sets are iterated backwards in every other round. -/
def ord1 (n : ℕ) (l : List Edge) : List Edge := if n % 2 = 1 then l.reverse else l

theorem ord1_perm (n : ℕ) (l : List Edge) : (ord1 n l).Perm l := by
  unfold ord1
  split_ifs
  · exact List.reverse_perm l
  · exact List.Perm.refl _

def pA : Point ℚ := ⟨0, 0, 0⟩
def pB : Point ℚ := ⟨4, 0, 0⟩
def pC : Point ℚ := ⟨0, 4, 0⟩
def pD : Point ℚ := ⟨0, 0, 4⟩
def pE : Point ℚ := ⟨5, 0, 4⟩
def pF : Point ℚ := ⟨5, 1, 4⟩
def pM : Point ℚ := ⟨1, 0, 0⟩
def pAB : Point ℚ := ⟨2, 0, 0⟩
def pBC : Point ℚ := ⟨2, 2, 0⟩
def pCA : Point ℚ := ⟨0, 2, 0⟩

/-- A flat closed surface with a corner of one side in the middle of a side of the other one. -/
def pillow : List (Triangle ℚ) := [⟨pA, pB, pC⟩, ⟨pM, pA, pC⟩, ⟨pB, pM, pC⟩]

def tetra : List (Triangle ℚ) := [⟨pA, pB, pC⟩, ⟨pB, pA, pD⟩, ⟨pC, pB, pD⟩, ⟨pA, pC, pD⟩]

/-- A sheet of four triangles on one face of `tetra`: open along all of its border. -/
def sheet : List (Triangle ℚ) := [⟨pA, pAB, pCA⟩, ⟨pAB, pB, pBC⟩, ⟨pCA, pBC, pC⟩, ⟨pAB, pBC, pCA⟩]

/-- A second tetrahedron, with the side from `pA` to `pB` in common with the first one. -/
def tetra2 : List (Triangle ℚ) :=
  [⟨pB, pA, ⟨0, -4, 0⟩⟩, ⟨pA, pB, ⟨0, 0, -4⟩⟩, ⟨pB, ⟨0, -4, 0⟩, ⟨0, 0, -4⟩⟩, ⟨⟨0, -4, 0⟩, pA, ⟨0, 0, -4⟩⟩]

/-! A test for `Simple` that can be computed. -/

/-- `ab` and `cd` are not parallel, do not run in the same direction, are on different lines or follow each other. -/
def apart (ab cd : Point ℤ × Point ℤ) : Bool :=
  let u : Point ℤ := ⟨ab.2.x - ab.1.x, ab.2.y - ab.1.y, ab.2.z - ab.1.z⟩
  let v : Point ℤ := ⟨cd.2.x - cd.1.x, cd.2.y - cd.1.y, cd.2.z - cd.1.z⟩
  let w : Point ℤ := ⟨cd.1.x - ab.1.x, cd.1.y - ab.1.y, cd.1.z - ab.1.z⟩
  decide (vectorProduct u v ≠ ⟨0, 0, 0⟩) || decide (dotProduct u v ≤ 0) || decide (vectorProduct u w ≠ ⟨0, 0, 0⟩) ||
    decide (ab.1 = cd.2) || decide (ab.2 = cd.1)

theorem apart_ok {ab cd : Point ℤ × Point ℤ} (h : apart ab cd = true) (hs : SameDirection ab cd) {q r : Point ℚ}
    (hq1 : OnSide q ab) (hq2 : OnSide q cd) (hr1 : OnSide r ab) (hr2 : OnSide r cd) : q = r := by
  obtain ⟨a, b⟩ := ab
  obtain ⟨c, d⟩ := cd
  obtain ⟨k, k0, mx, my, mz⟩ := hs
  obtain ⟨s, s0, s1, qx, qy, qz⟩ := hq1
  obtain ⟨t, t0, t1, qx', qy', qz'⟩ := hq2
  obtain ⟨s', s'0, s'1, rx, ry, rz⟩ := hr1
  obtain ⟨t', t'0, t'1, rx', ry', rz'⟩ := hr2
  simp only at mx my mz qx qy qz qx' qy' qz' rx ry rz rx' ry' rz'
  have done : s = s' → q = r := by
    rintro rfl
    cases q; cases r
    simp only at qx qy qz rx ry rz
    simp [qx, qy, qz, rx, ry, rz]
  have degenerate : a = b → q = r := by
    rintro rfl
    simp only [sub_self, mul_zero, add_zero] at qx qy qz rx ry rz
    cases q; cases r
    simp_all
  have castI : ∀ c d : ℤ, ((c : ℚ) = d) → c = d := fun c d h => by exact_mod_cast h
  by_cases hab : a = b
  · exact degenerate hab
  have hL := sq_pos (e := ⟨a, b⟩) hab
  simp only at hL
  simp only [apart, Bool.or_eq_true, decide_eq_true_eq] at h
  rcases h with (((h | h) | h) | h) | h
  · exfalso
    apply h
    simp only [vectorProduct, Point.mk.injEq]
    refine ⟨castI _ _ ?_, castI _ _ ?_, castI _ _ ?_⟩ <;> push_cast <;> simp only [mx, my, mz] <;> ring
  · exfalso
    have : (dotProduct ⟨b.x - a.x, b.y - a.y, b.z - a.z⟩ ⟨d.x - c.x, d.y - c.y, d.z - c.z⟩ : ℚ) ≤ 0 := by
      exact_mod_cast h
    simp only [dotProduct] at this
    push_cast at this
    simp only [mx, my, mz] at this
    have hp := mul_pos k0 hL
    linarith
  · exfalso
    apply h
    have wx : (c.x : ℚ) - a.x = (s - t * k) * (b.x - a.x) := by rw [mx] at qx'; linarith
    have wy : (c.y : ℚ) - a.y = (s - t * k) * (b.y - a.y) := by rw [my] at qy'; linarith
    have wz : (c.z : ℚ) - a.z = (s - t * k) * (b.z - a.z) := by rw [mz] at qz'; linarith
    simp only [vectorProduct, Point.mk.injEq]
    refine ⟨castI _ _ ?_, castI _ _ ?_, castI _ _ ?_⟩ <;> push_cast <;> simp only [wx, wy, wz] <;> ring
  · subst h
    have key : ∀ u v : ℚ, 0 ≤ u → v ≤ 1 →
        ((a.x : ℚ) + u * (b.x - a.x) = c.x + v * (a.x - c.x)) → ((a.y : ℚ) + u * (b.y - a.y) = c.y + v * (a.y - c.y)) →
        ((a.z : ℚ) + u * (b.z - a.z) = c.z + v * (a.z - c.z)) → u = 0 := by
      intro u v u0 v1 hx hy hz
      have e1 : (u + (1 - v) * k) * ((b.x : ℚ) - a.x) = 0 := by linear_combination hx - (1 - v) * mx
      have e2 : (u + (1 - v) * k) * ((b.y : ℚ) - a.y) = 0 := by linear_combination hy - (1 - v) * my
      have e3 : (u + (1 - v) * k) * ((b.z : ℚ) - a.z) = 0 := by linear_combination hz - (1 - v) * mz
      have hz0 : u + (1 - v) * k = 0 := by
        by_contra hne
        have h1 := (mul_eq_zero.1 e1).resolve_left hne
        have h2 := (mul_eq_zero.1 e2).resolve_left hne
        have h3 := (mul_eq_zero.1 e3).resolve_left hne
        rw [h1, h2, h3] at hL
        norm_num at hL
      have : 0 ≤ (1 - v) * k := mul_nonneg (by linarith) k0.le
      linarith
    exact done ((key s t s0 t1 (qx ▸ qx') (qy ▸ qy') (qz ▸ qz')).trans
      (key s' t' s'0 t'1 (rx ▸ rx') (ry ▸ ry') (rz ▸ rz')).symm)
  · subst h
    have key : ∀ u v : ℚ, u ≤ 1 → 0 ≤ v →
        ((a.x : ℚ) + u * (b.x - a.x) = b.x + v * (d.x - b.x)) → ((a.y : ℚ) + u * (b.y - a.y) = b.y + v * (d.y - b.y)) →
        ((a.z : ℚ) + u * (b.z - a.z) = b.z + v * (d.z - b.z)) → u = 1 := by
      intro u v u1 v0 hx hy hz
      have e1 : (1 - u + v * k) * ((b.x : ℚ) - a.x) = 0 := by linear_combination -hx - v * mx
      have e2 : (1 - u + v * k) * ((b.y : ℚ) - a.y) = 0 := by linear_combination -hy - v * my
      have e3 : (1 - u + v * k) * ((b.z : ℚ) - a.z) = 0 := by linear_combination -hz - v * mz
      have hz0 : 1 - u + v * k = 0 := by
        by_contra hne
        have h1 := (mul_eq_zero.1 e1).resolve_left hne
        have h2 := (mul_eq_zero.1 e2).resolve_left hne
        have h3 := (mul_eq_zero.1 e3).resolve_left hne
        rw [h1, h2, h3] at hL
        norm_num at hL
      have : 0 ≤ v * k := mul_nonneg v0 k0.le
      linarith
    exact done ((key s t s1 t0 (qx ▸ qx') (qy ▸ qy') (qz ▸ qz')).trans
      (key s' t' s'1 t'0 (rx ▸ rx') (ry ▸ ry') (rz ▸ rz')).symm)

theorem simple_of_apart (ss : List (Point ℤ × Point ℤ)) (hn : ss.Nodup)
    (h : ∀ ab ∈ ss, ∀ cd ∈ ss, ab ≠ cd → apart ab cd = true) : Simple ss :=
  ⟨hn, fun ab hab cd hcd hne hs _ _ h1 h2 h3 h4 => apart_ok (h ab hab cd hcd hne) hs h1 h2 h3 h4⟩

/-- The pillow needs splitting; it satisfies the hypotheses of `check_complete` and has no findings. -/
theorem pillow_checked : Simple (sides 1 pillow) ∧ Closed (sides 1 pillow) ∧
    checkTris ord1 9 1 pillow = some (.ok []) := by
  have h : checkTris ord1 9 1 pillow = some (.ok []) := by decide +kernel
  exact ⟨simple_of_apart _ (by decide +kernel) (by decide +kernel), (check_sound ord1 ord1_perm 9 1 pillow h).2, h⟩

/-- Finding: sides are counted once only. A tetrahedron with an open sheet on one of its faces passes, although the
sheet alone is open. -/
theorem open_sheet_undetected : checkTris ord0 9 1 (tetra ++ sheet) = some (.ok []) ∧ ¬ Closed (sides 1 sheet) := by
  refine ⟨by decide +kernel, fun hc => ?_⟩
  have hs : Simple (sides 1 sheet) := simple_of_apart _ (by decide +kernel) (by decide +kernel)
  obtain ⟨n, hn⟩ := check_complete ord0 ord0_perm 1 sheet hs hc
  have h1 : (match checkTris ord0 9 1 sheet with | some (.ok l) => decide (l = []) | _ => true) = false := by
    decide +kernel
  obtain ⟨errs, m, hm⟩ := check_ends ord0 ord0_perm 1 sheet
  rcases h9 : checkTris ord0 9 1 sheet with _ | (e | l)
  · rw [h9] at h1; simp at h1
  · rw [h9] at h1; simp at h1
  · have h2 := checkTris_mono h9 n
    rw [hn _ (Nat.le_add_left _ _)] at h2
    simp only [Option.some.injEq, Except.ok.injEq] at h2
    rw [h9, ← h2] at h1
    simp at h1

/-- Finding: two solids that touch along a side are closed, and are reported. -/
theorem touching_solids_reported : Closed (sides 1 (tetra ++ tetra2)) ∧
    checkTris ord0 9 1 (tetra ++ tetra2) =
      some (.ok [.duplicate ⟨⟨4, 0, 0⟩, ⟨0, 0, 0⟩⟩, .duplicate ⟨⟨0, 0, 0⟩, ⟨4, 0, 0⟩⟩]) := by
  refine ⟨?_, by decide +kernel⟩
  have hrev : ∀ ab ∈ sides 1 (tetra ++ tetra2), (ab.2, ab.1) ∈ sides 1 (tetra ++ tetra2) := by decide +kernel
  rintro ⟨a, b⟩ hab _ q hq
  refine ⟨(b, a), hrev _ hab, ⟨-1, by norm_num, ?_⟩, onSide_rev (e := ⟨a, b⟩) hq⟩
  simp [Multiple]

/-- A model with a material around a conductor; nothing is reported. -/
def exGen : Gen where
  dbu := 1
  materials := ["ox"]
  netNames := ["VDD"]
  diel := []
  cond := [(⟨"VDD", some "ox"⟩, pillow)]

theorem exGen_clean : check ord1 9 exGen = some (.ok 0) := by decide +kernel

end Verif.Checker
