import Verif.Finalize.Model
import Mathlib.Tactic.Ring
import Mathlib.Tactic.Linarith
import Mathlib.Tactic.FieldSimp
import Mathlib.Tactic.NormNum

/-!
# Properties of `finalize` and of the reference points

* C19 `finalize_ok`, `finalize_lossless`, `finalize_one_orientation`.
* C54 `reference_point_side`, `reference_point_reversed`, `bottom_faces_down`, `top_faces_up`, `wall_faces_left`.
-/

namespace Verif.Finalize

variable {α G R : Type}

/-! ### Specification -/

/-- How often triangle `t` is recorded for key `k`. -/
def recorded {K : Type} [DecidableEq K] [DecidableEq α] (d : Dict K (List (Triangle α))) (k : K) (t : Triangle α) : Nat :=
  (d.map (fun e => if e.1 = k then e.2.count t else 0)).sum

/-- How often triangle `t` occurs in the vertical planes of key `k`. -/
def recordedV {K : Type} [DecidableEq K] [DecidableEq α] (tri : G → R → List (Triangle α)) (d : Dict (K × G) R) (k : K)
    (t : Triangle α) : Nat :=
  (d.map (fun e => if e.1.1 = k then (tri e.1.2 e.2).count t else 0)).sum

/-! ### Lemmas -/

theorem rev_rev (k : HDielKey) : k.reversed.reversed = k := rfl
theorem trev_rev (t : Triangle α) : t.reversed.reversed = t := rfl

theorem count_map_rev [DecidableEq α] (v : List (Triangle α)) (t : Triangle α) :
    (v.map Triangle.reversed).count t = v.count t.reversed := by
  induction v with
  | nil => rfl
  | cons a v ih =>
    simp only [List.map_cons, List.count_cons, ih]
    congr 1
    have : (a.reversed == t) = (a == t.reversed) := by
      rw [Bool.eq_iff_iff, beq_iff_eq, beq_iff_eq]
      constructor
      · rintro rfl; rfl
      · rintro rfl; rfl
    rw [this]

section
variable {K : Type} [DecidableEq K]

theorem recorded_set_append [DecidableEq α] (d : Dict K (List (Triangle α))) (hd : d.keys.Nodup) (k0 : K)
    (v : List (Triangle α)) (k : K) (t : Triangle α) :
    recorded (d.upd k0 [] (· ++ v)) k t = recorded d k t + if k0 = k then v.count t else 0 := by
  induction d with
  | nil =>
    simp only [Dict.upd, Dict.set, recorded, Dict.getD, Dict.get?, List.map_cons, List.map_nil, List.sum_cons, List.sum_nil]
    simp
  | cons e d ih =>
    obtain ⟨k1, w⟩ := e
    simp only [Dict.keys, List.map_cons, List.nodup_cons] at hd
    by_cases h : k1 = k0
    · subst h
      simp only [Dict.upd, Dict.set, Dict.getD, Dict.get?, if_true, recorded, List.map_cons, List.sum_cons,
        Option.getD_some, List.count_append]
      by_cases h2 : k1 = k
      · simp only [h2, if_true]; omega
      · simp only [h2, if_false]; omega
    · have e1 : Dict.upd ((k1, w) :: d) k0 [] (· ++ v) = (k1, w) :: Dict.upd d k0 [] (· ++ v) := by
        simp [Dict.upd, Dict.set, Dict.getD, Dict.get?, h]
      rw [e1]
      simp only [recorded, List.map_cons, List.sum_cons] at ih ⊢
      rw [ih hd.2]
      omega

theorem addVertical_spec [DecidableEq α] (tri : G → R → List (Triangle α)) (vs : Dict (K × G) R)
    (d : Dict K (List (Triangle α))) (hd : d.keys.Nodup) :
    (vs.foldl (addVertical tri) d).keys.Nodup ∧
    ∀ k t, recorded (vs.foldl (addVertical tri) d) k t = recorded d k t + recordedV tri vs k t := by
  induction vs generalizing d with
  | nil => exact ⟨hd, fun k t => by simp [recordedV]⟩
  | cons v vs ih =>
    have h1 : (addVertical tri d v).keys.Nodup := Dict.nodup_keys_upd _ _ _ _ hd
    obtain ⟨h2, h3⟩ := ih _ h1
    refine ⟨h2, fun k t => ?_⟩
    rw [List.foldl_cons, h3, addVertical, recorded_set_append _ hd]
    simp only [recordedV, List.map_cons, List.sum_cons]
    omega

end

theorem mem_set {K V : Type} [DecidableEq K] {d : Dict K V} {k : K} {v : V} {e : K × V} (h : e ∈ d.set k v) :
    e = (k, v) ∨ e ∈ d := by
  induction d with
  | nil => left; simpa [Dict.set] using h
  | cons a d ih =>
    simp only [Dict.set] at h
    split at h
    · rename_i hk
      rcases List.mem_cons.1 h with h | h
      · left; rw [h, hk]
      · right; simp [h]
    · rcases List.mem_cons.1 h with h | h
      · right; simp [h]
      · rcases ih h with h | h
        · exact Or.inl h
        · right; simp [h]

/-- Every key of the list, or its reverse, has been selected, and never both. -/
structure Selected (ks : List HDielKey) (dk : Dict HDielKey (List (Triangle α))) : Prop where
  nodup : dk.keys.Nodup
  sub : ∀ k ∈ dk.keys, k ∈ ks
  some : ∀ k ∈ ks, k ∈ dk.keys ∨ k.reversed ∈ dk.keys
  one : ∀ k ∈ dk.keys, k.reversed ≠ k → k.reversed ∉ dk.keys
  empty : ∀ e ∈ dk, e.2 = []

theorem selected_fold (todo : List HDielKey) : ∀ (done : List HDielKey) (dk : Dict HDielKey (List (Triangle α))),
    Selected done dk → Selected (done ++ todo) (todo.foldl selectKey dk) := by
  induction todo with
  | nil => intro done dk h; simpa using h
  | cons k todo ih =>
    intro done dk h
    have := ih (done ++ [k]) (selectKey dk k) ?_
    · simpa using this
    · unfold selectKey
      by_cases hh : dk.has k.reversed = false
      · rw [if_pos hh]
        have hn : k.reversed ∉ dk.keys := by rw [← Dict.has_iff]; simpa using hh
        refine ⟨Dict.nodup_keys_set _ _ _ h.nodup, ?_, ?_, ?_, ?_⟩
        · intro j hj
          rw [Dict.mem_keys_set] at hj
          rcases hj with rfl | hj
          · simp
          · exact List.mem_append_left _ (h.sub j hj)
        · intro j hj
          simp only [Dict.mem_keys_set]
          rcases List.mem_append.1 hj with hj | hj
          · rcases h.some j hj with h1 | h1
            · exact Or.inl (Or.inr h1)
            · exact Or.inr (Or.inr h1)
          · exact Or.inl (Or.inl (by simpa using hj))
        · intro j hj hne
          rw [Dict.mem_keys_set] at hj ⊢
          rintro (h1 | h1)
          · rcases hj with rfl | hj
            · exact hne h1
            · exact hn (by rw [← h1, rev_rev]; exact hj)
          · rcases hj with rfl | hj
            · exact hn h1
            · exact h.one j hj hne h1
        · intro e he
          rcases mem_set he with h1 | h1
          · rw [h1]
          · exact h.empty e h1
      · rw [if_neg hh]
        have hn : k.reversed ∈ dk.keys := (Dict.has_iff _ _).1 (by simpa using hh)
        refine ⟨h.nodup, fun j hj => List.mem_append_left _ (h.sub j hj), ?_, h.one, h.empty⟩
        intro j hj
        rcases List.mem_append.1 hj with hj | hj
        · exact h.some j hj
        · right
          simp only [List.mem_singleton] at hj
          rw [hj]; exact hn

theorem recorded_empty [DecidableEq α] {dk : Dict HDielKey (List (Triangle α))} (h : ∀ e ∈ dk, e.2 = []) (k : HDielKey)
    (t : Triangle α) : recorded dk k t = 0 := by
  induction dk with
  | nil => rfl
  | cons e dk ih =>
    simp only [recorded, List.map_cons, List.sum_cons]
    rw [h e (by simp)]
    have := ih (fun e he => h e (by simp [he]))
    simp only [recorded] at this
    rw [this]; simp

theorem keys_upd_of_mem {dk : Dict HDielKey (List (Triangle α))} {k : HDielKey} (h : k ∈ dk.keys)
    (f : List (Triangle α) → List (Triangle α)) : (dk.upd k [] f).keys = dk.keys := by
  rw [Dict.upd, Dict.keys_set, if_pos h]

theorem move_fold [DecidableEq α] (todo : Dict HDielKey (List (Triangle α))) :
    ∀ (dk : Dict HDielKey (List (Triangle α))), dk.keys.Nodup →
    (∀ k ∈ todo.keys, k ∈ dk.keys ∨ k.reversed ∈ dk.keys) →
    ∃ dk', todo.foldlM moveTriangles dk = .ok dk' ∧ dk'.keys = dk.keys ∧
      ∀ k t, recorded dk' k t + recorded dk' k.reversed t.reversed =
        recorded dk k t + recorded dk k.reversed t.reversed + (recorded todo k t + recorded todo k.reversed t.reversed) := by
  induction todo with
  | nil => intro dk _ _; exact ⟨dk, rfl, rfl, fun k t => by simp [recorded]⟩
  | cons e todo ih =>
    intro dk hd hk
    obtain ⟨k0, v⟩ := e
    have hk0 := hk k0 (by simp [Dict.keys])
    have hk' : ∀ k ∈ Dict.keys todo, k ∈ dk.keys ∨ k.reversed ∈ dk.keys := by
      intro k hk1; exact hk k (by simp only [Dict.keys, List.map_cons, List.mem_cons]; exact Or.inr hk1)
    have hrec : ∀ k t, recorded ((k0, v) :: todo) k t = (if k0 = k then v.count t else 0) + recorded todo k t := by
      intro k t; simp [recorded]
    have hrr : ∀ k : HDielKey, (k0.reversed = k) = (k0 = k.reversed) := by
      intro k; apply propext; constructor
      · rintro rfl; rfl
      · rintro rfl; rfl
    by_cases h1 : dk.has k0.reversed = true
    · have hm : k0.reversed ∈ dk.keys := (Dict.has_iff _ _).1 h1
      have hkeys := keys_upd_of_mem hm (· ++ v.map Triangle.reversed)
      obtain ⟨dk', e1, e2, e3⟩ := ih (dk.upd k0.reversed [] (· ++ v.map Triangle.reversed)) (by rw [hkeys]; exact hd)
        (by rw [hkeys]; exact hk')
      refine ⟨dk', ?_, by rw [e2, hkeys], fun k t => ?_⟩
      · rw [List.foldlM_cons, moveTriangles]
        simp only [h1, if_true]
        exact e1
      · rw [e3, recorded_set_append _ hd, recorded_set_append _ hd, hrec, hrec, count_map_rev, count_map_rev, trev_rev]
        simp only [hrr, rev_rev]
        omega
    · have hn : k0.reversed ∉ dk.keys := fun h => h1 ((Dict.has_iff _ _).2 h)
      have hm : k0 ∈ dk.keys := hk0.resolve_right hn
      have h2 : dk.has k0 = true := (Dict.has_iff _ _).2 hm
      have hkeys := keys_upd_of_mem hm (· ++ v)
      obtain ⟨dk', e1, e2, e3⟩ := ih (dk.upd k0 [] (· ++ v)) (by rw [hkeys]; exact hd) (by rw [hkeys]; exact hk')
      refine ⟨dk', ?_, by rw [e2, hkeys], fun k t => ?_⟩
      · rw [List.foldlM_cons, moveTriangles]
        simp only [h1, h2, if_true, if_false]
        exact e1
      · rw [e3, recorded_set_append _ hd, recorded_set_append _ hd, hrec, hrec]
        omega

/-! ### C19 -/

theorem finalize_all [DecidableEq α] (tri : G → R → List (Triangle α)) (s : Data α G R) (hd : s.diel.keys.Nodup)
    (hc : s.cond.keys.Nodup) : ∃ s', finalize tri s = .ok s' ∧
    (∀ k ∈ s'.diel.keys, k.reversed ≠ k → k.reversed ∉ s'.diel.keys) ∧
    (∀ k t, recorded s'.diel k t + recorded s'.diel k.reversed t.reversed =
      (recorded s.diel k t + recordedV tri s.dielV k t) +
      (recorded s.diel k.reversed t.reversed + recordedV tri s.dielV k.reversed t.reversed)) ∧
    (∀ k t, recorded s'.cond k t = recorded s.cond k t + recordedV tri s.condV k t) := by
  obtain ⟨n1, r1⟩ := addVertical_spec tri s.dielV s.diel hd
  obtain ⟨n2, r2⟩ := addVertical_spec tri s.condV s.cond hc
  have hsel : Selected ((s.dielV.foldl (addVertical tri) s.diel).keys)
      ((s.dielV.foldl (addVertical tri) s.diel).keys.foldl selectKey ([] : Dict HDielKey (List (Triangle α)))) := by
    have := selected_fold (α := α) (s.dielV.foldl (addVertical tri) s.diel).keys [] []
      ⟨by simp [Dict.keys], by simp [Dict.keys], by simp, by simp [Dict.keys], by simp⟩
    simpa using this
  obtain ⟨dk', e1, e2, e3⟩ := move_fold (s.dielV.foldl (addVertical tri) s.diel) _ hsel.nodup hsel.some
  refine ⟨{ s with diel := dk', cond := s.condV.foldl (addVertical tri) s.cond }, ?_, ?_, ?_, r2⟩
  · simp only [finalize, e1]; rfl
  · show ∀ k ∈ dk'.keys, k.reversed ≠ k → k.reversed ∉ dk'.keys
    rw [e2]; exact hsel.one
  · intro k t
    show recorded dk' k t + recorded dk' k.reversed t.reversed = _
    rw [e3, recorded_empty hsel.empty, recorded_empty hsel.empty, r1, r1]
    omega

/-- **C19.** Finalisation never fails. -/
theorem finalize_ok [DecidableEq α] (tri : G → R → List (Triangle α)) (s : Data α G R) (hd : s.diel.keys.Nodup)
    (hc : s.cond.keys.Nodup) : ∃ s', finalize tri s = .ok s' := by
  obtain ⟨s', h, _⟩ := finalize_all tri s hd hc
  exact ⟨s', h⟩

/-- **C19.** Every triangle, horizontal or vertical, is kept exactly as often as it was collected, either under its pair
of materials or reversed under the reversed pair; conductor triangles stay under their key. -/
theorem finalize_lossless [DecidableEq α] (tri : G → R → List (Triangle α)) (s s' : Data α G R) (hd : s.diel.keys.Nodup)
    (hc : s.cond.keys.Nodup) (h : finalize tri s = .ok s') :
    (∀ k t, recorded s'.diel k t + recorded s'.diel k.reversed t.reversed =
      (recorded s.diel k t + recordedV tri s.dielV k t) +
      (recorded s.diel k.reversed t.reversed + recordedV tri s.dielV k.reversed t.reversed)) ∧
    (∀ k t, recorded s'.cond k t = recorded s.cond k t + recordedV tri s.condV k t) := by
  obtain ⟨s'', h', _, h3, h4⟩ := finalize_all tri s hd hc
  rw [h] at h'
  cases h'
  exact ⟨h3, h4⟩

/-- **C19.** Afterwards no pair of different materials is present in both orientations. -/
theorem finalize_one_orientation [DecidableEq α] (tri : G → R → List (Triangle α)) (s s' : Data α G R)
    (hd : s.diel.keys.Nodup) (hc : s.cond.keys.Nodup) (h : finalize tri s = .ok s') (a b : Option String) (hab : a ≠ b) :
    ¬ ((⟨a, b⟩ : HDielKey) ∈ s'.diel.keys ∧ (⟨b, a⟩ : HDielKey) ∈ s'.diel.keys) := by
  obtain ⟨s'', h', h2, _, _⟩ := finalize_all tri s hd hc
  rw [h] at h'
  cases h'
  rintro ⟨h3, h4⟩
  refine h2 _ h3 ?_ h4
  intro e
  simp only [HDielKey.reversed, HDielKey.mk.injEq] at e
  exact hab e.2

/-! ### C54: reference points -/

/-- Scalar product. -/
def dot (a b : Point ℝ) : ℝ := a.x * b.x + a.y * b.y + a.z * b.z

/-- The normal of a triangle (right hand rule). -/
def normal (t : Triangle ℝ) : Point ℝ :=
  let u := t.p1.sub t.p0
  let v := t.p2.sub t.p0
  ⟨u.y * v.z - u.z * v.y, u.z * v.x - u.x * v.z, u.x * v.y - u.y * v.x⟩

/-- The triangle is not degenerate. -/
def Proper (t : Triangle ℝ) : Prop := 0 < dot (normal t) (normal t)

/-- Signed distance of a point from the plane of a triangle, positive on the side of the normal. -/
noncomputable def side (t : Triangle ℝ) (q : Point ℝ) : ℝ := dot (normal t) (q.sub t.p0) / Real.sqrt (dot (normal t) (normal t))

/-- **C54.** The reference point of a triangle is one unit away from its plane, on the side of its normal. -/
theorem reference_point_side (t : Triangle ℝ) (h : Proper t) : side t t.outsideReferencePoint = 1 := by
  have hs : 0 < Real.sqrt (dot (normal t) (normal t)) := Real.sqrt_pos.2 h
  have e : Real.sqrt ((normal t).x ^ 2 + (normal t).y ^ 2 + (normal t).z ^ 2) = Real.sqrt (dot (normal t) (normal t)) := by
    congr 1; simp only [dot]; ring
  have e2 : t.outsideReferencePoint = ⟨t.p0.x + (normal t).x / Real.sqrt (dot (normal t) (normal t)),
      t.p0.y + (normal t).y / Real.sqrt (dot (normal t) (normal t)),
      t.p0.z + (normal t).z / Real.sqrt (dot (normal t) (normal t))⟩ := by
    rw [← e]
    simp only [Triangle.outsideReferencePoint, normal]
    have : ∀ a b c d : ℝ, -a * b + c * d = c * d - a * b := by intros; ring
    simp only [this]
  rw [side, e2]
  have hsq : Real.sqrt (dot (normal t) (normal t)) * Real.sqrt (dot (normal t) (normal t)) = dot (normal t) (normal t) :=
    Real.mul_self_sqrt h.le
  generalize Real.sqrt (dot (normal t) (normal t)) = r at *
  have hne : r ≠ 0 := hs.ne'
  simp only [dot, Point.sub] at hsq ⊢
  field_simp
  nlinarith [hsq]

/-- The plane's normal of a reversed triangle is opposite. -/
theorem normal_reversed (t : Triangle ℝ) : normal t.reversed = ⟨-(normal t).x, -(normal t).y, -(normal t).z⟩ := by
  simp only [normal, Triangle.reversed, Point.sub, Point.mk.injEq]
  refine ⟨?_, ?_, ?_⟩ <;> ring

/-- **C54.** The reference point of the reversed triangle is one unit away on the other side. -/
theorem reference_point_reversed (t : Triangle ℝ) (h : Proper t) : side t t.reversed.outsideReferencePoint = -1 := by
  have hp : dot (normal t.reversed) (normal t.reversed) = dot (normal t) (normal t) := by
    rw [normal_reversed]; simp only [dot]; ring
  have h1 := reference_point_side t.reversed (by unfold Proper; rw [hp]; exact h)
  have hs : 0 < Real.sqrt (dot (normal t) (normal t)) := Real.sqrt_pos.2 h
  unfold side at h1 ⊢
  rw [hp] at h1
  have key : ∀ q : Point ℝ, dot (normal t.reversed) (q.sub t.reversed.p0) = - dot (normal t) (q.sub t.p0) := by
    intro q
    rw [normal_reversed]
    simp only [dot, normal, Triangle.reversed, Point.sub]
    ring
  rw [key, neg_div] at h1
  linarith

/-- Clockwise orientation of a triangle of the plane (KLayout's orientation of hulls). -/
def Clockwise (t : Tri2 ℝ) : Prop :=
  (t.b.1 - t.a.1) * (t.c.2 - t.a.2) - (t.b.2 - t.a.2) * (t.c.1 - t.a.1) < 0

theorem horizontal_normal (dbu z : ℝ) (t : Tri2 ℝ) : normal (horizontal dbu z t) =
    ⟨0, 0, ((t.b.1 - t.a.1) * (t.c.2 - t.a.2) - (t.b.2 - t.a.2) * (t.c.1 - t.a.1)) * dbu ^ 2⟩ := by
  simp only [normal, horizontal, Point.sub, Point.mk.injEq]
  refine ⟨?_, ?_, ?_⟩ <;> ring

theorem ref_eq (t : Triangle ℝ) : t.outsideReferencePoint =
    ⟨t.p0.x + (normal t).x / Real.sqrt (dot (normal t) (normal t)),
      t.p0.y + (normal t).y / Real.sqrt (dot (normal t) (normal t)),
      t.p0.z + (normal t).z / Real.sqrt (dot (normal t) (normal t))⟩ := by
  have e : Real.sqrt ((normal t).x ^ 2 + (normal t).y ^ 2 + (normal t).z ^ 2) = Real.sqrt (dot (normal t) (normal t)) := by
    congr 1; simp only [dot]; ring
  rw [← e]
  simp only [Triangle.outsideReferencePoint, normal]
  have : ∀ a b c d : ℝ, -a * b + c * d = c * d - a * b := by intros; ring
  simp only [this]

/-- **C54.** A dielectric surface or conductor bottom at height `z` has its reference point one unit below: on the side of
the material that is booked as outside (`generate_hdiel(below, ...)`, `generate_hcond_in(..., below)`). -/
theorem bottom_faces_down (dbu z : ℝ) (hdbu : 0 < dbu) (t : Tri2 ℝ) (ht : Clockwise t) :
    (horizontal dbu z t).outsideReferencePoint.z = z - 1 := by
  rw [ref_eq, horizontal_normal]
  unfold Clockwise at ht
  generalize (t.b.1 - t.a.1) * (t.c.2 - t.a.2) - (t.b.2 - t.a.2) * (t.c.1 - t.a.1) = A at *
  have hneg : A * dbu ^ 2 < 0 := mul_neg_of_neg_of_pos ht (by positivity)
  have e : Real.sqrt (dot ⟨0, 0, A * dbu ^ 2⟩ ⟨0, 0, A * dbu ^ 2⟩) = -(A * dbu ^ 2) := by
    have : dot ⟨0, 0, A * dbu ^ 2⟩ ⟨0, 0, A * dbu ^ 2⟩ = (-(A * dbu ^ 2)) * (-(A * dbu ^ 2)) := by simp only [dot]; ring
    rw [this, Real.sqrt_mul_self (by linarith)]
  rw [e]
  simp only [horizontal]
  have hne : A * dbu ^ 2 ≠ 0 := hneg.ne
  rw [div_neg, div_self hne]
  ring

/-- **C54.** A conductor top at height `z` has its reference point one unit above. -/
theorem top_faces_up (dbu z : ℝ) (hdbu : 0 < dbu) (t : Tri2 ℝ) (ht : Clockwise t) :
    (horizontalTop dbu z t).outsideReferencePoint.z = z + 1 := by
  rw [ref_eq, horizontalTop, normal_reversed, horizontal_normal]
  unfold Clockwise at ht
  generalize (t.b.1 - t.a.1) * (t.c.2 - t.a.2) - (t.b.2 - t.a.2) * (t.c.1 - t.a.1) = A at *
  have hneg : A * dbu ^ 2 < 0 := mul_neg_of_neg_of_pos ht (by positivity)
  have e : Real.sqrt (dot ⟨-0, -0, -(A * dbu ^ 2)⟩ ⟨-0, -0, -(A * dbu ^ 2)⟩) = -(A * dbu ^ 2) := by
    have : dot ⟨-0, -0, -(A * dbu ^ 2)⟩ ⟨-0, -0, -(A * dbu ^ 2)⟩ = (-(A * dbu ^ 2)) * (-(A * dbu ^ 2)) := by
      simp only [dot]; ring
    rw [this, Real.sqrt_mul_self (by linarith)]
  rw [e]
  simp only [horizontal, Triangle.reversed]
  have hne : -(A * dbu ^ 2) ≠ 0 := by linarith
  rw [div_self hne]

/-- **C54.** A wall along the direction `de` (a unit vector) has its reference point one unit to the left of the wall, where
the outside of a clockwise hull is. -/
theorem wall_faces_left (dbu : ℝ) (hdbu : 0 < dbu) (p0 de : ℝ × ℝ) (hde : de.1 ^ 2 + de.2 ^ 2 = 1) (t : Tri2 ℝ)
    (ht : Clockwise t) :
    let q := (vertical dbu p0 de t).p0
    let r := (vertical dbu p0 de t).outsideReferencePoint
    r.x = q.x - de.2 ∧ r.y = q.y + de.1 ∧ r.z = q.z := by
  intro q r
  have hn : normal (vertical dbu p0 de t) =
      ⟨de.2 * (((t.b.1 - t.a.1) * (t.c.2 - t.a.2) - (t.b.2 - t.a.2) * (t.c.1 - t.a.1)) * dbu ^ 2),
       -de.1 * (((t.b.1 - t.a.1) * (t.c.2 - t.a.2) - (t.b.2 - t.a.2) * (t.c.1 - t.a.1)) * dbu ^ 2), 0⟩ := by
    simp only [normal, vertical, Point.sub, Point.mk.injEq]
    refine ⟨?_, ?_, ?_⟩ <;> ring
  have hr : r = (vertical dbu p0 de t).outsideReferencePoint := rfl
  rw [ref_eq, hn] at hr
  unfold Clockwise at ht
  generalize (t.b.1 - t.a.1) * (t.c.2 - t.a.2) - (t.b.2 - t.a.2) * (t.c.1 - t.a.1) = A at *
  have hneg : A * dbu ^ 2 < 0 := mul_neg_of_neg_of_pos ht (by positivity)
  have e : Real.sqrt (dot ⟨de.2 * (A * dbu ^ 2), -de.1 * (A * dbu ^ 2), 0⟩ ⟨de.2 * (A * dbu ^ 2), -de.1 * (A * dbu ^ 2), 0⟩) =
      -(A * dbu ^ 2) := by
    have : dot ⟨de.2 * (A * dbu ^ 2), -de.1 * (A * dbu ^ 2), 0⟩ ⟨de.2 * (A * dbu ^ 2), -de.1 * (A * dbu ^ 2), 0⟩ =
        (-(A * dbu ^ 2)) * (-(A * dbu ^ 2)) := by
      simp only [dot]
      calc _ = (de.1 ^ 2 + de.2 ^ 2) * (A * dbu ^ 2) ^ 2 := by ring
        _ = _ := by rw [hde]; ring
    rw [this, Real.sqrt_mul_self (by linarith)]
  rw [e] at hr
  have hne : A * dbu ^ 2 ≠ 0 := hneg.ne
  rw [hr]
  refine ⟨?_, ?_, ?_⟩
  · show q.x + _ = _
    rw [div_neg, mul_div_assoc, div_self hne]; ring
  · show q.y + _ = _
    rw [div_neg, mul_div_assoc, div_self hne]; ring
  · show q.z + _ = _
    simp

/-- A point at the distance `s` from `p0` along the unit vector `de`, at the height `h`. All lengths are in database units of
the size `dbu`. -/
structure OnWall (dbu : ℝ) (p0 de : ℝ × ℝ) (s h : ℝ) (q : Point ℝ) : Prop where
  aside : (q.x - p0.1 * dbu) * de.2 = (q.y - p0.2 * dbu) * de.1
  along : (q.x - p0.1 * dbu) * de.1 + (q.y - p0.2 * dbu) * de.2 = s * dbu
  height : q.z = h * dbu

/-- **C54.** The corners of a wall along the unit vector `de` stand on the line through `p0`, at the distances and heights of
the triangle, in its order. -/
theorem wall_upright (dbu : ℝ) (p0 de : ℝ × ℝ) (hde : de.1 ^ 2 + de.2 ^ 2 = 1) (t : Tri2 ℝ) :
    OnWall dbu p0 de t.a.1 t.a.2 (vertical dbu p0 de t).p0 ∧ OnWall dbu p0 de t.b.1 t.b.2 (vertical dbu p0 de t).p1 ∧
      OnWall dbu p0 de t.c.1 t.c.2 (vertical dbu p0 de t).p2 := by
  have key (s : ℝ) : s * dbu * (de.1 ^ 2 + de.2 ^ 2) = s * dbu := by rw [hde, mul_one]
  refine ⟨⟨?_, ?_, rfl⟩, ⟨?_, ?_, rfl⟩, ⟨?_, ?_, rfl⟩⟩ <;> simp only [vertical]
  · ring
  · exact .trans (by ring) (key t.a.1)
  · ring
  · exact .trans (by ring) (key t.b.1)
  · ring
  · exact .trans (by ring) (key t.c.1)

/-! ### Concrete cases -/

example : OnWall 1 (3, 4) (1, 0) 2 5 ⟨5, 4, 5⟩ := ⟨by norm_num, by norm_num, by norm_num⟩

/-- Two materials with surfaces in both orientations, one vertical plane. -/
def exData : Data Int Unit (List (Triangle Int)) where
  diel := [(⟨some "a", some "b"⟩, [⟨⟨0, 0, 0⟩, ⟨1, 0, 0⟩, ⟨0, 1, 0⟩⟩]), (⟨some "b", some "a"⟩, [⟨⟨0, 0, 1⟩, ⟨1, 0, 1⟩, ⟨0, 1, 1⟩⟩]),
    (⟨none, some "a"⟩, [⟨⟨0, 0, 2⟩, ⟨1, 0, 2⟩, ⟨0, 1, 2⟩⟩])]
  dielV := [((⟨some "b", some "a"⟩, ()), [⟨⟨0, 0, 3⟩, ⟨1, 0, 3⟩, ⟨0, 1, 3⟩⟩])]

example : exData.diel.keys.Nodup ∧ exData.cond.keys.Nodup ∧
    (finalize (fun _ r => r) exData).toOption.map (fun s => s.diel) =
      some [(⟨some "a", some "b"⟩, [⟨⟨0, 0, 0⟩, ⟨1, 0, 0⟩, ⟨0, 1, 0⟩⟩, ⟨⟨0, 1, 1⟩, ⟨1, 0, 1⟩, ⟨0, 0, 1⟩⟩,
          ⟨⟨0, 1, 3⟩, ⟨1, 0, 3⟩, ⟨0, 0, 3⟩⟩]),
        (⟨none, some "a"⟩, [⟨⟨0, 0, 2⟩, ⟨1, 0, 2⟩, ⟨0, 1, 2⟩⟩])] := by decide +kernel

example : Clockwise ⟨(0, 0), (0, 10), (10, 0)⟩ := by norm_num [Clockwise]

example : Proper ⟨⟨0, 0, 0⟩, ⟨0, 1, 0⟩, ⟨1, 0, 0⟩⟩ := by norm_num [Proper, dot, normal, Point.sub]

end Verif.Finalize
