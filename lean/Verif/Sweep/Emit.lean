import Verif.Sweep.Faces

/-!
# Emitted surfaces against the materials below and above
-/

namespace Verif.Sweep

variable {P : Type} [DecidableEq P]

theorem find?_sub {α : Type} {l : List α} {q q' : α → Bool} {m : α} (h : l.find? q = some m) (hm : q' m = true)
    (hs : ∀ x ∈ l, q' x = true → q x = true) : l.find? q' = some m := by
  induction l with
  | nil => simp at h
  | cons x l ih =>
    rw [List.find?_cons] at h ⊢
    cases hx : q x with
    | true =>
      rw [hx] at h
      simp only [Option.some.injEq] at h
      subst h
      rw [hm]
    | false =>
      rw [hx] at h
      have : q' x = false := by
        cases hq : q' x with
        | false => rfl
        | true => rw [hs x (by simp) hq] at hx; cases hx
      rw [this]
      exact ih h (fun y hy => hs y (List.mem_cons_of_mem _ hy))

theorem firstOf_mat {cov : Mk → Finset P} {nets mats : List String} {p : P} {m : String}
    (h : firstOf cov (keysOf nets mats) p = some (.mat m)) :
    (∀ n ∈ nets, p ∉ cov (.net n)) ∧ mats.find? (fun m => decide (p ∈ cov (.mat m))) = some m := by
  rw [keysOf, firstOf_append] at h
  rcases hf : firstOf cov (nets.map Mk.net) p with _ | k
  · rw [hf, Option.none_or] at h
    rw [firstOf_none] at hf
    refine ⟨fun n hn => hf _ (List.mem_map.2 ⟨n, hn, rfl⟩), ?_⟩
    rw [firstOf, List.find?_map] at h
    simp only [Option.map_eq_some_iff] at h
    obtain ⟨m', hm', e⟩ := h
    cases e
    exact hm'
  · rw [hf, Option.some_or] at h
    have := (firstOf_some_mem hf).1
    cases h
    simp at this

theorem firstOf_net {cov : Mk → Finset P} {nets mats : List String} {p : P} {n : String}
    (h : firstOf cov (keysOf nets mats) p = some (.net n)) : n ∈ nets ∧ p ∈ cov (.net n) := by
  obtain ⟨h1, h2⟩ := firstOf_some_mem h
  exact ⟨mem_keysOf_net.1 h1, h2⟩

/-- If some net contains the point, the first key is a net. -/
theorem firstOf_isNet {cov : Mk → Finset P} {nets mats : List String} {p : P} {n : String} (hn : n ∈ nets)
    (hp : p ∈ cov (.net n)) : isNet (firstOf cov (keysOf nets mats) p) = true := by
  rcases hf : firstOf cov (keysOf nets mats) p with _ | k
  · rw [firstOf_none] at hf
    exact absurd hp (hf _ (mem_keysOf_net.2 hn))
  · cases k with
    | net n' => rfl
    | mat m => exact absurd hp ((firstOf_mat hf).1 n hn)

theorem filter_singleton {l : List String} (hl : l.Nodup) {q : String → Bool} {m : String} (hm : m ∈ l)
    (hq : ∀ x ∈ l, q x = true ↔ x = m) : l.filter q = [m] := by
  induction l with
  | nil => simp at hm
  | cons x l ih =>
    rw [List.nodup_cons] at hl
    rcases List.mem_cons.1 hm with rfl | hm
    · have h1 : q m = true := (hq m (by simp)).2 rfl
      have h2 : l.filter q = [] := by
        rw [List.filter_eq_nil_iff]
        intro y hy hqy
        have := (hq y (List.mem_cons_of_mem _ hy)).1 hqy
        subst this
        exact hl.1 hy
      rw [List.filter_cons, if_pos h1, h2]
    · have h1 : ¬ q x = true := by
        intro h
        have := (hq x (by simp)).1 h
        subst this
        exact hl.1 hm
      rw [List.filter_cons, if_neg h1]
      exact ih hl.2 hm (fun y hy => hq y (List.mem_cons_of_mem _ hy))

theorem filter_nil {l : List String} {q : String → Bool} (hq : ∀ x ∈ l, q x = false) : l.filter q = [] := by
  rw [List.filter_eq_nil_iff]; intro x hx; simp [hq x hx]

section
variable {past cur : Mk → Finset P} {nets mats : List String} {din dout : Mk → Finset P} {cin cout : Finset P}

/-- The label of the material below: the first dielectric that ends. -/
theorem below_label (E : Events past cur nets mats din dout cin cout) (p : P)
    (hn : isNet (firstOf past (keysOf nets mats) p) = false)
    (hne : firstOf past (keysOf nets mats) p ≠ firstOf cur (keysOf nets mats) p) :
    mats.find? (fun m => decide (p ∈ dout (.mat m))) = matOf (firstOf past (keysOf nets mats) p) := by
  rcases hb : firstOf past (keysOf nets mats) p with _ | k
  · simp only [matOf, List.find?_eq_none, decide_eq_true_eq]
    intro m hm hp
    rw [firstOf_none] at hb
    exact hb _ (mem_keysOf_mat.2 hm) (E.out_past _ (mem_keysOf_mat.2 hm) p hp)
  · cases k with
    | net n => rw [hb] at hn; cases hn
    | mat m =>
      have h1 : p ∈ dout (.mat m) := E.first_out _ p hb (fun h => hne (hb.trans h.symm))
      refine find?_sub (firstOf_mat hb).2 (by simpa using h1) ?_
      intro x hx hq
      simp only [decide_eq_true_eq] at hq ⊢
      exact E.out_past _ (mem_keysOf_mat.2 hx) p hq

/-- The label of the material above: the first dielectric that starts. -/
theorem above_label (E : Events past cur nets mats din dout cin cout) (p : P)
    (hn : isNet (firstOf cur (keysOf nets mats) p) = false)
    (hne : firstOf past (keysOf nets mats) p ≠ firstOf cur (keysOf nets mats) p) :
    mats.find? (fun m => decide (p ∈ din (.mat m))) = matOf (firstOf cur (keysOf nets mats) p) := by
  rcases hb : firstOf cur (keysOf nets mats) p with _ | k
  · simp only [matOf, List.find?_eq_none, decide_eq_true_eq]
    intro m hm hp
    rw [firstOf_none] at hb
    exact hb _ (mem_keysOf_mat.2 hm) (E.in_cur _ (mem_keysOf_mat.2 hm) p hp)
  · cases k with
    | net n => rw [hb] at hn; cases hn
    | mat m =>
      have h1 : p ∈ din (.mat m) := E.first_in _ p hb (fun h => hne (h.trans hb.symm))
      refine find?_sub (firstOf_mat hb).2 (by simpa using h1) ?_
      intro x hx hq
      simp only [decide_eq_true_eq] at hq ⊢
      exact E.in_cur _ (mem_keysOf_mat.2 hx) p hq

theorem not_cin (E : Events past cur nets mats din dout cin cout) (p : P)
    (hn : isNet (firstOf cur (keysOf nets mats) p) = false) : p ∉ cin := by
  rw [E.cin]
  rintro ⟨n, hn', hp⟩
  rw [firstOf_isNet hn' (E.in_cur _ (mem_keysOf_net.2 hn') p hp)] at hn
  cases hn

theorem not_cout (E : Events past cur nets mats din dout cin cout) (p : P)
    (hn : isNet (firstOf past (keysOf nets mats) p) = false) : p ∉ cout := by
  rw [E.cout]
  rintro ⟨n, hn', hp⟩
  rw [firstOf_isNet hn' (E.out_past _ (mem_keysOf_net.2 hn') p hp)] at hn
  cases hn

theorem in_cin (E : Events past cur nets mats din dout cin cout) (p : P)
    (hn : isNet (firstOf cur (keysOf nets mats) p) = true)
    (hne : firstOf past (keysOf nets mats) p ≠ firstOf cur (keysOf nets mats) p) : p ∈ cin := by
  rcases hb : firstOf cur (keysOf nets mats) p with _ | (n | m)
  · rw [hb] at hn; cases hn
  · exact (E.cin p).2 ⟨n, (firstOf_net hb).1, E.first_in _ p hb (fun h => hne (h.trans hb.symm))⟩
  · rw [hb] at hn; cases hn

theorem in_cout (E : Events past cur nets mats din dout cin cout) (p : P)
    (hn : isNet (firstOf past (keysOf nets mats) p) = true)
    (hne : firstOf past (keysOf nets mats) p ≠ firstOf cur (keysOf nets mats) p) : p ∈ cout := by
  rcases hb : firstOf past (keysOf nets mats) p with _ | (n | m)
  · rw [hb] at hn; cases hn
  · exact (E.cout p).2 ⟨n, (firstOf_net hb).1, E.first_out _ p hb (fun h => hne (hb.trans h.symm))⟩
  · rw [hb] at hn; cases hn

/-- Nothing is emitted where the material does not change. -/
theorem emit_same (E : Events past cur nets mats din dout cin cout) (p : P)
    (h : firstOf past (keysOf nets mats) p = firstOf cur (keysOf nets mats) p) :
    facesAt p (emitFaces nets mats din dout cin cout) = [] := by
  have hs := E.same p h
  rw [facesAt_emit]
  rw [filter_nil (l := mats) (q := fun m => decide (p ∈ din (.mat m) ∧ p ∉ cout)),
    filter_nil (l := mats) (q := fun m => decide (p ∈ dout (.mat m) ∧ p ∉ cin ∧ ∀ m' ∈ mats, p ∉ din (.mat m'))),
    filter_nil (l := nets) (q := fun n => decide (p ∈ din (.net n))),
    filter_nil (l := nets) (q := fun n => decide (p ∈ dout (.net n) ∧ p ∉ cin))]
  · rfl
  · intro n hn; simp [(hs _ (mem_keysOf_net.2 hn)).2]
  · intro n hn; simp [(hs _ (mem_keysOf_net.2 hn)).1]
  · intro n hn; simp [(hs _ (mem_keysOf_mat.2 hn)).2]
  · intro n hn; simp [(hs _ (mem_keysOf_mat.2 hn)).1]

/-- Every interface is emitted under the right key. -/
theorem emit_complete (E : Events past cur nets mats din dout cin cout) (p : P)
    (hne : firstOf past (keysOf nets mats) p ≠ firstOf cur (keysOf nets mats) p)
    (hnn : ¬ (isNet (firstOf past (keysOf nets mats) p) = true ∧ isNet (firstOf cur (keysOf nets mats) p) = true)) :
    faceOf (firstOf past (keysOf nets mats) p) (firstOf cur (keysOf nets mats) p) ∈
      facesAt p (emitFaces nets mats din dout cin cout) := by
  rw [facesAt_emit]
  simp only [List.mem_append, List.mem_map, List.mem_filter, decide_eq_true_eq]
  cases hna : isNet (firstOf cur (keysOf nets mats) p) with
  | true =>
    -- a net above
    have hnb : isNet (firstOf past (keysOf nets mats) p) = false := by
      cases h : isNet (firstOf past (keysOf nets mats) p) with
      | false => rfl
      | true => exact absurd ⟨h, hna⟩ hnn
    rcases ha : firstOf cur (keysOf nets mats) p with _ | (n | m)
    · rw [ha] at hna; cases hna
    · left; right
      refine ⟨n, ⟨(firstOf_net ha).1, E.first_in _ p ha (fun h => hne (h.trans ha.symm))⟩, ?_⟩
      rw [below_label E p hnb hne]
      rfl
    · rw [ha] at hna; cases hna
  | false =>
    have hc := not_cin E p hna
    have hl := above_label E p hna hne
    cases hnb : isNet (firstOf past (keysOf nets mats) p) with
    | true =>
      -- a net below
      rcases hb : firstOf past (keysOf nets mats) p with _ | (n | m)
      · rw [hb] at hnb; cases hnb
      · right
        refine ⟨n, ⟨(firstOf_net hb).1, E.first_out _ p hb (fun h => hne (hb.trans h.symm)), hc⟩, ?_⟩
        rw [hl]
        rcases ha : firstOf cur (keysOf nets mats) p with _ | (n' | m)
        · rfl
        · rw [ha] at hna; cases hna
        · rfl
      · rw [hb] at hnb; cases hnb
    | false =>
      have hl' := below_label E p hnb hne
      have hco := not_cout E p hnb
      left; left
      rcases ha : firstOf cur (keysOf nets mats) p with _ | (n | m)
      · -- void above
        rcases hb : firstOf past (keysOf nets mats) p with _ | (n' | m)
        · exact absurd (hb.trans ha.symm) hne
        · rw [hb] at hnb; cases hnb
        · right
          refine ⟨m, ⟨mem_keysOf_mat.1 (firstOf_some_mem hb).1, E.first_out _ p hb (by rw [ha]; simp), hc, ?_⟩, rfl⟩
          intro m' hm' hp
          rw [firstOf_none] at ha
          exact ha _ (mem_keysOf_mat.2 hm') (E.in_cur _ (mem_keysOf_mat.2 hm') p hp)
      · rw [ha] at hna; cases hna
      · left
        refine ⟨m, ⟨mem_keysOf_mat.1 (firstOf_some_mem ha).1, E.first_in _ p ha (fun h => hne (h.trans ha.symm)), hco⟩, ?_⟩
        rw [hl']
        rcases hb : firstOf past (keysOf nets mats) p with _ | (n' | m)
        · rfl
        · rw [hb] at hnb; cases hnb
        · rfl

/-- Where two different nets touch, the bottom of the upper one is emitted. -/
theorem emit_contact (E : Events past cur nets mats din dout cin cout) (p : P) (n : String)
    (hne : firstOf past (keysOf nets mats) p ≠ firstOf cur (keysOf nets mats) p)
    (ha : firstOf cur (keysOf nets mats) p = some (.net n)) :
    ∃ x, Face.bottom n x ∈ facesAt p (emitFaces nets mats din dout cin cout) := by
  rw [facesAt_emit]
  simp only [List.mem_append, List.mem_map, List.mem_filter, decide_eq_true_eq]
  exact ⟨_, Or.inl (Or.inr ⟨n, ⟨(firstOf_net ha).1, E.first_in _ p ha (fun h => hne (h.trans ha.symm))⟩, rfl⟩)⟩

/-- Exactly one surface, with the right key, if at the point no two nets and no two dielectrics are drawn over each
other and no two different nets touch. -/
theorem emit_exact (E : Events past cur nets mats din dout cin cout) (p : P) (hN : nets.Nodup) (hM : mats.Nodup)
    (hne : firstOf past (keysOf nets mats) p ≠ firstOf cur (keysOf nets mats) p)
    (hnn : ¬ (isNet (firstOf past (keysOf nets mats) p) = true ∧ isNet (firstOf cur (keysOf nets mats) p) = true))
    (un : ∀ n ∈ nets, ∀ n' ∈ nets, p ∈ cur (.net n) → p ∈ cur (.net n') → n = n')
    (un' : ∀ n ∈ nets, ∀ n' ∈ nets, p ∈ past (.net n) → p ∈ past (.net n') → n = n')
    (um : ∀ m ∈ mats, ∀ m' ∈ mats, p ∈ cur (.mat m) → p ∈ cur (.mat m') → m = m')
    (um' : ∀ m ∈ mats, ∀ m' ∈ mats, p ∈ past (.mat m) → p ∈ past (.mat m') → m = m') :
    facesAt p (emitFaces nets mats din dout cin cout) =
      [faceOf (firstOf past (keysOf nets mats) p) (firstOf cur (keysOf nets mats) p)] := by
  rw [facesAt_emit]
  have inM : ∀ m ∈ mats, p ∈ din (.mat m) → p ∈ cur (.mat m) := fun m hm h => E.in_cur _ (mem_keysOf_mat.2 hm) p h
  have outM : ∀ m ∈ mats, p ∈ dout (.mat m) → p ∈ past (.mat m) := fun m hm h => E.out_past _ (mem_keysOf_mat.2 hm) p h
  have inN : ∀ m ∈ nets, p ∈ din (.net m) → p ∈ cur (.net m) := fun m hm h => E.in_cur _ (mem_keysOf_net.2 hm) p h
  have outN : ∀ m ∈ nets, p ∈ dout (.net m) → p ∈ past (.net m) := fun m hm h => E.out_past _ (mem_keysOf_net.2 hm) p h
  cases hna : isNet (firstOf cur (keysOf nets mats) p) with
  | true =>
    have hnb : isNet (firstOf past (keysOf nets mats) p) = false := by
      cases h : isNet (firstOf past (keysOf nets mats) p) with
      | false => rfl
      | true => exact absurd ⟨h, hna⟩ hnn
    have noPast : ∀ n ∈ nets, p ∉ past (.net n) := by
      intro n hn hp
      rw [firstOf_isNet hn hp] at hnb; cases hnb
    rcases ha : firstOf cur (keysOf nets mats) p with _ | (n | m)
    · rw [ha] at hna; cases hna
    · have hn := (firstOf_net ha).1
      have hni : p ∈ din (.net n) := E.first_in _ p ha (fun h => hne (h.trans ha.symm))
      have hcin : p ∈ cin := (E.cin p).2 ⟨n, hn, hni⟩
      rw [filter_nil (l := mats) (q := fun m => decide (p ∈ din (.mat m) ∧ p ∉ cout)),
        filter_nil (l := mats) (q := fun m => decide (p ∈ dout (.mat m) ∧ p ∉ cin ∧ ∀ m' ∈ mats, p ∉ din (.mat m'))),
        filter_singleton hN hn (q := fun n => decide (p ∈ din (.net n))),
        filter_nil (l := nets) (q := fun n => decide (p ∈ dout (.net n) ∧ p ∉ cin))]
      · rw [below_label E p hnb hne]; rfl
      · intro x _; simp [hcin]
      · intro x hx
        simp only [decide_eq_true_eq]
        constructor
        · intro h; exact un x hx n hn (inN x hx h) (inN n hn hni)
        · rintro rfl; exact hni
      · intro x _; simp [hcin]
      · intro x hx
        have : p ∉ din (.mat x) := by
          intro h
          rcases E.in_why _ (mem_keysOf_mat.2 hx) p h with e | ⟨h1, j, hj, hjx, h2⟩
          · rw [ha] at e; cases e
          · cases j with
            | net n' => exact noPast n' (mem_keysOf_net.1 hj) (outN n' (mem_keysOf_net.1 hj) h2)
            | mat m' =>
              have := um' m' (mem_keysOf_mat.1 hj) x hx (outM m' (mem_keysOf_mat.1 hj) h2) h1
              exact hjx (by rw [this])
        simp [this]
    · rw [ha] at hna; cases hna
  | false =>
    have hc := not_cin E p hna
    have hl := above_label E p hna hne
    have noCur : ∀ n ∈ nets, p ∉ cur (.net n) := by
      intro n hn hp
      rw [firstOf_isNet hn hp] at hna; cases hna
    have f3 : nets.filter (fun n => decide (p ∈ din (.net n))) = [] := by
      apply filter_nil
      intro x hx
      have : p ∉ din (.net x) := fun h => noCur x hx (inN x hx h)
      simp [this]
    rw [f3]
    cases hnb : isNet (firstOf past (keysOf nets mats) p) with
    | true =>
      rcases hb : firstOf past (keysOf nets mats) p with _ | (n | m)
      · rw [hb] at hnb; cases hnb
      · have hn := (firstOf_net hb).1
        have hno : p ∈ dout (.net n) := E.first_out _ p hb (fun h => hne (hb.trans h.symm))
        have hcout : p ∈ cout := (E.cout p).2 ⟨n, hn, hno⟩
        rw [filter_nil (l := mats) (q := fun m => decide (p ∈ din (.mat m) ∧ p ∉ cout)),
          filter_nil (l := mats) (q := fun m => decide (p ∈ dout (.mat m) ∧ p ∉ cin ∧ ∀ m' ∈ mats, p ∉ din (.mat m'))),
          filter_singleton hN hn (q := fun n => decide (p ∈ dout (.net n) ∧ p ∉ cin))]
        · rw [hl]
          rcases ha : firstOf cur (keysOf nets mats) p with _ | (n' | m)
          · rfl
          · rw [ha] at hna; cases hna
          · rfl
        · intro x hx
          simp only [decide_eq_true_eq]
          constructor
          · intro h; exact un' x hx n hn (outN x hx h.1) (outN n hn hno)
          · rintro rfl; exact ⟨hno, hc⟩
        · intro x hx
          have : ¬ (p ∈ dout (.mat x) ∧ p ∉ cin ∧ ∀ m' ∈ mats, p ∉ din (.mat m')) := by
            rintro ⟨h, _, h'⟩
            rcases E.out_why _ (mem_keysOf_mat.2 hx) p h with e | ⟨_, j, hj, _, h2⟩
            · rw [hb] at e; cases e
            · cases j with
              | net n' => exact noCur n' (mem_keysOf_net.1 hj) (inN n' (mem_keysOf_net.1 hj) h2)
              | mat m' => exact h' m' (mem_keysOf_mat.1 hj) h2
          simp only [decide_eq_false this]
        · intro x _; simp [hcout]
      · rw [hb] at hnb; cases hnb
    | false =>
      have hl' := below_label E p hnb hne
      have hco := not_cout E p hnb
      have noPast : ∀ n ∈ nets, p ∉ past (.net n) := by
        intro n hn hp
        rw [firstOf_isNet hn hp] at hnb; cases hnb
      have f4 : nets.filter (fun n => decide (p ∈ dout (.net n) ∧ p ∉ cin)) = [] := by
        apply filter_nil
        intro x hx
        have : p ∉ dout (.net x) := fun h => noPast x hx (outN x hx h)
        simp [this]
      rw [f4]
      rcases ha : firstOf cur (keysOf nets mats) p with _ | (n | m)
      · -- void above
        have hno : ∀ x ∈ mats, p ∉ din (.mat x) := by
          intro x hx hp
          rw [firstOf_none] at ha
          exact ha _ (mem_keysOf_mat.2 hx) (inM x hx hp)
        rcases hb : firstOf past (keysOf nets mats) p with _ | (n' | m)
        · exact absurd (hb.trans ha.symm) hne
        · rw [hb] at hnb; cases hnb
        · have hm := mem_keysOf_mat.1 (firstOf_some_mem hb).1
          have hmo : p ∈ dout (.mat m) := E.first_out _ p hb (by rw [ha]; simp)
          rw [filter_nil (l := mats) (q := fun m => decide (p ∈ din (.mat m) ∧ p ∉ cout)),
            filter_singleton hM hm
              (q := fun m => decide (p ∈ dout (.mat m) ∧ p ∉ cin ∧ ∀ m' ∈ mats, p ∉ din (.mat m')))]
          · rfl
          · intro x hx
            simp only [decide_eq_true_eq]
            constructor
            · intro h; exact um' x hx m hm (outM x hx h.1) (outM m hm hmo)
            · rintro rfl; exact ⟨hmo, hc, hno⟩
          · intro x hx; simp [hno x hx]
      · rw [ha] at hna; cases hna
      · have hm := mem_keysOf_mat.1 (firstOf_some_mem ha).1
        have hmi : p ∈ din (.mat m) := E.first_in _ p ha (fun h => hne (h.trans ha.symm))
        rw [filter_singleton hM hm (q := fun m => decide (p ∈ din (.mat m) ∧ p ∉ cout)),
          filter_nil (l := mats) (q := fun m => decide (p ∈ dout (.mat m) ∧ p ∉ cin ∧ ∀ m' ∈ mats, p ∉ din (.mat m')))]
        · rw [hl']
          rcases hb : firstOf past (keysOf nets mats) p with _ | (n' | m')
          · rfl
          · rw [hb] at hnb; cases hnb
          · rfl
        · intro x _
          have : ¬ (p ∈ dout (.mat x) ∧ p ∉ cin ∧ ∀ m' ∈ mats, p ∉ din (.mat m')) := fun h => h.2.2 m hm hmi
          simp only [decide_eq_false this]
        · intro x hx
          simp only [decide_eq_true_eq]
          constructor
          · intro h; exact um x hx m hm (inM x hx h.1) (inM m hm hmi)
          · rintro rfl; exact ⟨hmi, hco⟩

/-- What can go wrong: an emitted dielectric surface always names the right material below; only the material above may
be a dielectric that is drawn there but hidden. A surface to the void above is always right. -/
theorem emit_diel_label (E : Events past cur nets mats din dout cin cout) (p : P) (b a : Option String)
    (h : Face.diel b a ∈ facesAt p (emitFaces nets mats din dout cin cout)) :
    firstOf past (keysOf nets mats) p ≠ firstOf cur (keysOf nets mats) p ∧
    firstOf past (keysOf nets mats) p = b.map Mk.mat ∧
    (match a with | none => firstOf cur (keysOf nets mats) p = none | some m => m ∈ mats ∧ p ∈ cur (.mat m)) := by
  have hne : firstOf past (keysOf nets mats) p ≠ firstOf cur (keysOf nets mats) p := by
    intro e
    rw [emit_same E p e] at h
    simp at h
  refine ⟨hne, ?_⟩
  rw [facesAt_emit] at h
  simp only [List.mem_append, List.mem_map, List.mem_filter, decide_eq_true_eq] at h
  rcases h with ((⟨m, ⟨hm, hi, hco⟩, e⟩ | ⟨m, ⟨hm, ho, hc, hno⟩, e⟩) | ⟨n, _, e⟩) | ⟨n, _, e⟩
  · cases e
    have hnb : isNet (firstOf past (keysOf nets mats) p) = false := by
      cases hnb : isNet (firstOf past (keysOf nets mats) p) with
      | false => rfl
      | true => exact absurd (in_cout E p hnb hne) hco
    refine ⟨?_, hm, E.in_cur _ (mem_keysOf_mat.2 hm) p hi⟩
    rw [below_label E p hnb hne]
    rcases hb : firstOf past (keysOf nets mats) p with _ | (n | m')
    · rfl
    · rw [hb] at hnb; cases hnb
    · rfl
  · cases e
    constructor
    · rcases E.out_why _ (mem_keysOf_mat.2 hm) p ho with e | ⟨_, j, hj, _, h2⟩
      · exact e
      · cases j with
        | net n' => exact absurd ((E.cin p).2 ⟨n', mem_keysOf_net.1 hj, h2⟩) hc
        | mat m' => exact absurd h2 (hno m' (mem_keysOf_mat.1 hj))
    · show firstOf cur (keysOf nets mats) p = none
      rcases ha : firstOf cur (keysOf nets mats) p with _ | k
      · rfl
      · have hk := (firstOf_some_mem ha).1
        have hi := E.first_in _ p ha (fun h => hne (h.trans ha.symm))
        cases k with
        | net n' => exact absurd ((E.cin p).2 ⟨n', mem_keysOf_net.1 hk, hi⟩) hc
        | mat m' => exact absurd hi (hno m' (mem_keysOf_mat.1 hk))
  · cases e
  · cases e

end
end Verif.Sweep
