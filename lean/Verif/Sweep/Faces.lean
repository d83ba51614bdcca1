import Verif.Sweep.Lemmas

/-!
# The horizontal surfaces emitted at one height, seen from one point
-/

namespace Verif.Sweep

variable {P : Type} [DecidableEq P]

/-- Kinds of the surfaces of the list that contain the point. -/
def facesAt (p : P) (l : List (Face × Finset P)) : List Face :=
  (l.filter (fun f => decide (p ∈ f.2))).map Prod.fst

theorem facesAt_append (p : P) (l1 l2 : List (Face × Finset P)) : facesAt p (l1 ++ l2) = facesAt p l1 ++ facesAt p l2 := by
  simp [facesAt]

theorem peel_at (p : P) (other : String → Finset P) (ms : List String) : ∀ (r : Finset P),
    ((peel r other ms).filter (fun f => decide (p ∈ f.2))).map Prod.fst =
      if p ∈ r then [ms.find? (fun m => decide (p ∈ other m))] else [] := by
  induction ms with
  | nil =>
    intro r
    by_cases hr : r = ∅
    · simp [peel, hr]
    · by_cases hp : p ∈ r <;> simp [peel, hr, hp]
  | cons m ms ih =>
    intro r
    simp only [peel, List.filter_append, List.map_append, ih, Finset.mem_sdiff]
    by_cases hm : p ∈ other m
    · by_cases hp : p ∈ r
      · have hne : ¬ (other m ∩ r = ∅) := by
          intro h
          have : p ∈ other m ∩ r := by simp [hm, hp]
          rw [h] at this
          simp at this
        simp [hne, hm, hp]
      · by_cases he : other m ∩ r = ∅ <;> simp [he, hm, hp]
    · by_cases he : other m ∩ r = ∅ <;> simp [he, hm]

theorem facesAt_peel (p : P) (other : String → Finset P) (ms : List String) (r : Finset P) (f : Option String → Face) :
    facesAt p ((peel r other ms).map (fun x => (f x.1, x.2))) =
      if p ∈ r then [f (ms.find? (fun m => decide (p ∈ other m)))] else [] := by
  have h := congrArg (List.map f) (peel_at p other ms r)
  unfold facesAt
  rw [List.filter_map, List.map_map]
  rw [List.map_map] at h
  refine Eq.trans ?_ (h.trans ?_)
  · rfl
  · split <;> rfl

theorem mem_subtractAll (p : P) (other : String → Finset P) (ms : List String) : ∀ (r : Finset P),
    p ∈ subtractAll r other ms ↔ p ∈ r ∧ ∀ m ∈ ms, p ∉ other m := by
  unfold subtractAll
  induction ms with
  | nil => intro r; simp
  | cons m ms ih => intro r; rw [List.foldl_cons, ih]; simp [and_assoc]

theorem facesAt_flatMap {α : Type} (p : P) (l : List α) (f : α → List (Face × Finset P)) (q : α → Prop)
    [DecidablePred q] (g : α → Face) (h : ∀ x ∈ l, facesAt p (f x) = if q x then [g x] else []) :
    facesAt p (l.flatMap f) = (l.filter (fun x => decide (q x))).map g := by
  induction l with
  | nil => rfl
  | cons x l ih =>
    rw [List.flatMap_cons, facesAt_append, h x (by simp), ih (fun y hy => h y (List.mem_cons_of_mem _ hy))]
    by_cases hx : q x <;> simp [hx]

/-- The surfaces emitted at a point. -/
theorem facesAt_emit (p : P) (nets mats : List String) (din dout : Mk → Finset P) (cin cout : Finset P) :
    facesAt p (emitFaces nets mats din dout cin cout) =
      (mats.filter (fun m => decide (p ∈ din (.mat m) ∧ p ∉ cout))).map
          (fun m => Face.diel (mats.find? (fun m => decide (p ∈ dout (.mat m)))) (some m))
        ++ (mats.filter (fun m => decide (p ∈ dout (.mat m) ∧ p ∉ cin ∧ ∀ m' ∈ mats, p ∉ din (.mat m')))).map
          (fun m => Face.diel (some m) none)
        ++ (nets.filter (fun n => decide (p ∈ din (.net n)))).map
          (fun n => Face.bottom n (mats.find? (fun m => decide (p ∈ dout (.mat m)))))
        ++ (nets.filter (fun n => decide (p ∈ dout (.net n) ∧ p ∉ cin))).map
          (fun n => Face.top n (mats.find? (fun m => decide (p ∈ din (.mat m))))) := by
  unfold emitFaces
  simp only [facesAt_append]
  congr 1
  congr 1
  congr 1
  · apply facesAt_flatMap
    intro m _
    rw [facesAt_peel (f := fun x => Face.diel x (some m))]
    simp only [Finset.mem_sdiff]
  · apply facesAt_flatMap
    intro m _
    have hm := mem_subtractAll p (fun m => din (.mat m)) mats (dout (.mat m) \ cin)
    generalize subtractAll (dout (.mat m) \ cin) (fun m => din (.mat m)) mats = r at hm
    simp only [Finset.mem_sdiff, and_assoc] at hm
    by_cases hr : r = ∅
    · subst hr
      simp only [Finset.notMem_empty, false_iff] at hm
      simp [facesAt, hm]
    · by_cases hp : p ∈ r
      · rw [if_pos (hm.1 hp)]
        simp [facesAt, hr, hp]
      · rw [if_neg (fun h => hp (hm.2 h))]
        simp [facesAt, hr, hp]
  · apply facesAt_flatMap
    intro n _
    rw [facesAt_peel]
  · apply facesAt_flatMap
    intro n _
    rw [facesAt_peel]
    simp only [Finset.mem_sdiff]

/-! ### What the first loop leaves behind -/

/-- The keys in the order in which `finish_z` visits them. -/
def keysOf (nets mats : List String) : List Mk := nets.map Mk.net ++ mats.map Mk.mat

theorem mem_keysOf_net {nets mats : List String} {n : String} : Mk.net n ∈ keysOf nets mats ↔ n ∈ nets := by
  simp [keysOf]

theorem mem_keysOf_mat {nets mats : List String} {m : String} : Mk.mat m ∈ keysOf nets mats ↔ m ∈ mats := by
  simp [keysOf]

theorem nodup_keysOf {nets mats : List String} (h1 : nets.Nodup) (h2 : mats.Nodup) : (keysOf nets mats).Nodup := by
  unfold keysOf
  rw [List.nodup_append]
  refine ⟨h1.map (fun _ _ h => Mk.net.inj h), h2.map (fun _ _ h => Mk.mat.inj h), ?_⟩
  intro a ha b hb
  simp only [List.mem_map] at ha hb
  obtain ⟨_, _, rfl⟩ := ha
  obtain ⟨_, _, rfl⟩ := hb
  simp

/-- Facts about the legalised events at one height (consequences of `LInv`). -/
structure Events (past cur : Mk → Finset P) (nets mats : List String) (din dout : Mk → Finset P)
    (cin cout : Finset P) : Prop where
  cin : ∀ p, p ∈ cin ↔ ∃ n ∈ nets, p ∈ din (.net n)
  cout : ∀ p, p ∈ cout ↔ ∃ n ∈ nets, p ∈ dout (.net n)
  in_cur : ∀ k ∈ keysOf nets mats, ∀ p, p ∈ din k → p ∈ cur k
  out_past : ∀ k ∈ keysOf nets mats, ∀ p, p ∈ dout k → p ∈ past k
  first_in : ∀ k p, firstOf cur (keysOf nets mats) p = some k → firstOf past (keysOf nets mats) p ≠ some k → p ∈ din k
  first_out : ∀ k p, firstOf past (keysOf nets mats) p = some k → firstOf cur (keysOf nets mats) p ≠ some k → p ∈ dout k
  same : ∀ p, firstOf past (keysOf nets mats) p = firstOf cur (keysOf nets mats) p →
    ∀ k ∈ keysOf nets mats, p ∉ din k ∧ p ∉ dout k
  in_why : ∀ k ∈ keysOf nets mats, ∀ p, p ∈ din k →
    firstOf cur (keysOf nets mats) p = some k ∨ (p ∈ past k ∧ ∃ j ∈ keysOf nets mats, j ≠ k ∧ p ∈ dout j)
  out_why : ∀ k ∈ keysOf nets mats, ∀ p, p ∈ dout k →
    firstOf past (keysOf nets mats) p = some k ∨ (p ∈ cur k ∧ ∃ j ∈ keysOf nets mats, j ≠ k ∧ p ∈ din j)

theorem legalize_din_ne {layersIn layersOut : Mk → Finset P} (R : List Mk) : ∀ (a : Acc P) (k : Mk), k ∉ R →
    (R.foldl (legalize layersIn layersOut) a).din k = a.din k ∧
    (R.foldl (legalize layersIn layersOut) a).dout k = a.dout k := by
  induction R with
  | nil => intro a k _; exact ⟨rfl, rfl⟩
  | cons j R ih =>
    intro a k hk
    simp only [List.mem_cons, not_or] at hk
    rw [List.foldl_cons, (ih _ k hk.2).1, (ih _ k hk.2).2]
    simp [legalize, Function.update_of_ne hk.1]

/-- Shape of the generator between two heights. -/
structure Ready (g : Gen P) (past : Mk → Finset P) : Prop where
  nets : g.nets.Nodup
  mats : g.mats.Nodup
  settled : ∀ k ∈ keysOf g.nets g.mats, Settled (g.current k) (past k)
  state : ∀ k ∈ keysOf g.nets g.mats, ∀ p, p ∈ g.state k ↔ firstOf past (keysOf g.nets g.mats) p = some k

theorem overlapCheck_zero {cov : Mk → Finset P} {state : Mk → Finset P} (K : List Mk)
    (hs : ∀ k ∈ K, ∀ p, p ∈ state k ↔ firstOf cov K p = some k) (L : List Mk) : ∀ (done : List Mk) (a : Finset P),
    done ++ L = K → K.Nodup → (∀ p, p ∈ a ↔ ∃ k ∈ L, p ∈ state k) → overlapCheck state L a = 0 := by
  induction L with
  | nil => intros; rfl
  | cons k L ih =>
    intro done a hK hnd ha
    have hsub : state k \ a = ∅ := by
      ext p
      simp only [Finset.mem_sdiff, Finset.notMem_empty, iff_false, not_and, not_not]
      intro hp
      exact (ha p).2 ⟨k, by simp, hp⟩
    have hkL : k ∉ L := by
      rw [← hK] at hnd
      have := (List.nodup_append.1 hnd).2.1
      exact (List.nodup_cons.1 this).1
    simp only [overlapCheck, hsub, if_true, zero_add]
    apply ih (done ++ [k])
    · simpa using hK
    · exact hnd
    · intro p
      rw [Finset.mem_sdiff, ha]
      constructor
      · rintro ⟨⟨j, hj, hp⟩, hn⟩
        rcases List.mem_cons.1 hj with rfl | hj
        · exact absurd hp hn
        · exact ⟨j, hj, hp⟩
      · rintro ⟨j, hj, hp⟩
        refine ⟨⟨j, List.mem_cons_of_mem _ hj, hp⟩, fun hn => ?_⟩
        rw [hs k (by rw [← hK]; simp)] at hn
        rw [hs j (by rw [← hK]; simp [hj])] at hp
        rw [hn] at hp
        cases hp
        exact hkL hj

theorem mem_foldl_union (f : Mk → Finset P) (p : P) (K : List Mk) : ∀ (r : Finset P),
    p ∈ K.foldl (fun r k => r ∪ f k) r ↔ p ∈ r ∨ ∃ k ∈ K, p ∈ f k := by
  induction K with
  | nil => intro r; simp
  | cons k K ih => intro r; rw [List.foldl_cons, ih]; simp [or_assoc]

/-- Effect of `finish_z` if exactly the regions `past` are occupied before and exactly the regions `cur` come in. -/
theorem finishZ_spec (g : Gen P) (past cur : Mk → Finset P) (h : Ready g past)
    (hin : ∀ k ∈ keysOf g.nets g.mats, g.layersIn k = cur k) (hout : ∀ k ∈ keysOf g.nets g.mats, g.layersOut k = past k) :
    Ready g.finishZ cur ∧ g.finishZ.nets = g.nets ∧ g.finishZ.mats = g.mats ∧ g.finishZ.z = g.z ∧
    g.finishZ.dbu = g.dbu ∧ g.finishZ.walls = g.walls ∧ g.finishZ.overlapErrors = g.overlapErrors ∧
    ∃ (din dout : Mk → Finset P) (cin cout : Finset P), Events past cur g.nets g.mats din dout cin cout ∧
      g.finishZ.horiz = g.horiz ++
        (emitFaces g.nets g.mats din dout cin cout).map (fun f => ⟨f.1, g.z.getD 0, f.2⟩) := by
  have hnd := nodup_keysOf h.nets h.mats
  set a0 : Acc P := { current := g.current, state := g.state } with ha0
  set a1 := (g.nets.map Mk.net).foldl (legalize g.layersIn g.layersOut) a0 with ha1
  set a2 := (g.mats.map Mk.mat).foldl (legalize g.layersIn g.layersOut) a1 with ha2
  have hkn : ∀ k ∈ g.nets.map Mk.net, k ∈ keysOf g.nets g.mats := fun k hk => List.mem_append_left _ hk
  have hkm : ∀ k ∈ g.mats.map Mk.mat, k ∈ keysOf g.nets g.mats := fun k hk => List.mem_append_right _ hk
  -- all keys
  have i2 : LInv past cur a0 a2 (keysOf g.nets g.mats) := by
    have := legalize_fold (past := past) (cur := cur) (a0 := a0) (layersIn := g.layersIn) (layersOut := g.layersOut)
      (keysOf g.nets g.mats) [] a0 (LInv.nil past cur a0 rfl rfl rfl) (by simpa using hnd) h.settled hin hout
      (by simpa using h.state)
    rw [List.nil_append] at this
    rw [ha2, ha1, ← List.foldl_append]
    exact this
  -- the nets alone
  have i1 : LInv past cur a0 a1 (g.nets.map Mk.net) := by
    have hndn : (g.nets.map Mk.net).Nodup := (List.nodup_append.1 hnd).1
    -- states of the nets do not depend on the materials
    have := legalize_fold (past := past) (cur := cur) (a0 := a0) (layersIn := g.layersIn) (layersOut := g.layersOut)
      (g.nets.map Mk.net) [] a0 (LInv.nil past cur a0 rfl rfl rfl) (by simpa using hndn)
      (fun k hk => h.settled k (hkn k hk)) (fun k hk => hin k (hkn k hk)) (fun k hk => hout k (hkn k hk)) (by
        intro k hk p
        rw [List.nil_append] at hk ⊢
        show p ∈ g.state k ↔ _
        rw [h.state k (hkn k hk), keysOf, firstOf_append]
        rcases hf : firstOf past (g.nets.map Mk.net) p with _ | j
        · constructor
          · intro h'
            have hm := (firstOf_some_mem (by simpa using h' : firstOf past (g.mats.map Mk.mat) p = some k)).1
            simp only [List.mem_map] at hk hm
            obtain ⟨_, _, rfl⟩ := hk
            obtain ⟨_, _, h''⟩ := hm
            cases h''
          · intro h'; cases h'
        · simp)
    rw [List.nil_append] at this
    exact this
  have hdin : ∀ n, a2.din (.net n) = a1.din (.net n) ∧ a2.dout (.net n) = a1.dout (.net n) := by
    intro n
    exact legalize_din_ne _ a1 (.net n) (by simp)
  refine ⟨⟨h.nets, h.mats, i2.settled, i2.state⟩, rfl, rfl, rfl, rfl, rfl, ?_, a2.din, a2.dout, a1.allIn, a1.allOut, ?_, rfl⟩
  · show g.overlapErrors + overlapCheck a2.state (keysOf g.nets g.mats)
      ((keysOf g.nets g.mats).foldl (fun r k => r ∪ a2.state k) ∅) = g.overlapErrors
    rw [overlapCheck_zero (cov := cur) (keysOf g.nets g.mats) i2.state (keysOf g.nets g.mats) [] _ rfl hnd]
    · rfl
    · intro p
      rw [mem_foldl_union]; simp
  · refine ⟨?_, ?_, i2.in_cur, i2.out_past, i2.first_in, i2.first_out, i2.same, i2.in_why, i2.out_why⟩
    · intro p
      rw [i1.allIn]
      simp only [List.mem_map]
      constructor
      · rintro ⟨_, ⟨n, hn, rfl⟩, hp⟩; exact ⟨n, hn, by rw [(hdin n).1]; exact hp⟩
      · rintro ⟨n, hn, hp⟩; exact ⟨_, ⟨n, hn, rfl⟩, by rw [(hdin n).1] at hp; exact hp⟩
    · intro p
      rw [i1.allOut]
      simp only [List.mem_map]
      constructor
      · rintro ⟨_, ⟨n, hn, rfl⟩, hp⟩; exact ⟨n, hn, by rw [(hdin n).2]; exact hp⟩
      · rintro ⟨n, hn, hp⟩; exact ⟨_, ⟨n, hn, rfl⟩, by rw [(hdin n).2] at hp; exact hp⟩

end Verif.Sweep
