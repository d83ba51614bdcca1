import Verif.Sweep.Emit
import Mathlib.Data.List.Enum
import Mathlib.Data.List.Nodup

/-!
# The vertical surfaces emitted in one slab, seen from one edge
-/

namespace Verif.Sweep

variable {P : Type} [DecidableEq P]

/-- Kinds of the walls of the list on the edge. -/
def wallsAt (e : P × P) (l : List (WallKey × Finset (P × P))) : List WallKey :=
  (l.filter (fun w => decide (e ∈ w.2))).map Prod.fst

theorem wallsAt_append (e : P × P) (l1 l2 : List (WallKey × Finset (P × P))) :
    wallsAt e (l1 ++ l2) = wallsAt e l1 ++ wallsAt e l2 := by
  simp [wallsAt]

theorem wallsAt_cons (e : P × P) (w : WallKey × Finset (P × P)) (l : List (WallKey × Finset (P × P))) :
    wallsAt e (w :: l) = (if e ∈ w.2 then [w.1] else []) ++ wallsAt e l := by
  by_cases h : e ∈ w.2 <;> simp [wallsAt, h]

theorem wallsAt_flatMap {α : Type} (e : P × P) (l : List α) (f : α → List (WallKey × Finset (P × P))) :
    wallsAt e (l.flatMap f) = l.flatMap (fun x => wallsAt e (f x)) := by
  induction l with
  | nil => rfl
  | cons x l ih => rw [List.flatMap_cons, wallsAt_append, ih]; rfl

theorem flatMap_eq_nil' {α β : Type} {l : List α} {f : α → List β} (h : ∀ x ∈ l, f x = []) : l.flatMap f = [] := by
  rw [List.flatMap_eq_nil_iff]; exact h

theorem flatMap_single {α β : Type} {l : List α} (hl : l.Nodup) {f : α → List β} {x : α} (hx : x ∈ l)
    (h : ∀ y ∈ l, y ≠ x → f y = []) : l.flatMap f = f x := by
  induction l with
  | nil => simp at hx
  | cons y l ih =>
    rw [List.nodup_cons] at hl
    rw [List.flatMap_cons]
    by_cases hyx : y = x
    · subst hyx
      rw [flatMap_eq_nil' (l := l), List.append_nil]
      intro z hz
      exact h z (List.mem_cons_of_mem _ hz) (fun e => hl.1 (e ▸ hz))
    · rw [h y (by simp) hyx, List.nil_append]
      rcases List.mem_cons.1 hx with e | hx
      · exact absurd e.symm hyx
      · exact ih hl.2 hx (fun z hz => h z (List.mem_cons_of_mem _ hz))

section
variable {adj : Finset (P × P)} {state : Mk → Finset P} {occ : P → Option Mk} {nets mats : List String}

theorem mem_edges (hs : ∀ k ∈ keysOf nets mats, ∀ p, p ∈ state k ↔ occ p = some k) {k : Mk}
    (hk : k ∈ keysOf nets mats) (e : P × P) :
    e ∈ edges adj (state k) ↔ e ∈ adj ∧ occ e.1 = some k ∧ occ e.2 ≠ some k := by
  simp [edges, hs k hk]

/-- One step of the loops over the outside materials. -/
theorem outside_step (hadj : ∀ e ∈ adj, e.swap ∈ adj) (hs : ∀ k ∈ keysOf nets mats, ∀ p, p ∈ state k ↔ occ p = some k)
    {k : Mk} {mno : String} (hm : mno ∈ mats) (hk : k ≠ .mat mno) {lin : Finset (P × P)}
    (hlin : ∀ e ∈ lin, e ∈ adj ∧ occ e.1 = some k) (e : P × P) :
    (e ∈ (eAnd (edges adj (state (.mat mno))) lin).image Prod.swap ↔ e ∈ lin ∧ occ e.2 = some (.mat mno)) ∧
    (e ∈ eSub lin (edges adj (state (.mat mno))) ↔ e ∈ lin ∧ occ e.2 ≠ some (.mat mno)) := by
  have hmk := mem_keysOf_mat (nets := nets).2 hm
  have hkm : ∀ q, occ q = some k → occ q ≠ some (.mat mno) := by
    intro q h1 h2; rw [h1] at h2; exact hk (Option.some.inj h2)
  constructor
  · simp only [Finset.mem_image, eAnd, Finset.mem_filter, mem_edges hs hmk]
    constructor
    · rintro ⟨d, ⟨⟨h1, h2, h3⟩, h4⟩, rfl⟩
      rcases h4 with h4 | h4
      · exact absurd h2 (hkm _ (hlin d h4).2)
      · exact ⟨h4, h2⟩
    · rintro ⟨h1, h2⟩
      refine ⟨e.swap, ⟨⟨hadj e (hlin e h1).1, h2, hkm _ (hlin e h1).2⟩, Or.inr (by simpa using h1)⟩, by simp⟩
  · simp only [eSub, Finset.mem_filter, mem_edges hs hmk]
    constructor
    · rintro ⟨h1, h2⟩
      refine ⟨h1, fun h3 => h2 (Or.inr ⟨hadj e (hlin e h1).1, h3, hkm _ (hlin e h1).2⟩)⟩
    · rintro ⟨h1, h2⟩
      refine ⟨h1, ?_⟩
      rintro (⟨_, h4, _⟩ | ⟨_, h4, _⟩)
      · exact hkm _ (hlin e h1).2 h4
      · exact h2 h4

theorem condWalls_at (hadj : ∀ e ∈ adj, e.swap ∈ adj)
    (hs : ∀ k ∈ keysOf nets mats, ∀ p, p ∈ state k ↔ occ p = some k) (nn : String) (e : P × P) (ms : List String) :
    ∀ (lin : Finset (P × P)), (∀ m ∈ ms, m ∈ mats) → (∀ e ∈ lin, e ∈ adj ∧ occ e.1 = some (.net nn)) →
    wallsAt e (condWalls adj state nn ms lin) =
      if e ∈ lin then [.cond nn (ms.find? (fun m => decide (occ e.2 = some (.mat m))))] else [] := by
  induction ms with
  | nil => intro lin _ _; simp [condWalls, wallsAt_cons]; rfl
  | cons m ms ih =>
    intro lin hms hlin
    obtain ⟨s1, s2⟩ := outside_step (k := .net nn) hadj hs (hms m (by simp)) (by simp) hlin e
    rw [condWalls, wallsAt_cons, ih _ (fun x hx => hms x (List.mem_cons_of_mem _ hx)) (by
      intro e' he'
      exact hlin e' ((outside_step (k := .net nn) hadj hs (hms m (by simp)) (by simp) hlin e').2.1 he').1)]
    simp only [s1, s2, List.find?_cons]
    by_cases h1 : e ∈ lin <;> by_cases h2 : occ e.2 = some (.mat m) <;> simp [h1, h2]

theorem dielWalls_at (hadj : ∀ e ∈ adj, e.swap ∈ adj)
    (hs : ∀ k ∈ keysOf nets mats, ∀ p, p ∈ state k ↔ occ p = some k) (mni : String) (i : Nat) (e : P × P)
    (ms : List (String × Nat)) :
    ∀ (lin : Finset (P × P)), (∀ m ∈ ms, m.1 ∈ mats ∧ (i ≠ m.2 → mni ≠ m.1)) →
    (∀ e ∈ lin, e ∈ adj ∧ occ e.1 = some (.mat mni)) →
    wallsAt e (dielWalls adj state mni i ms lin) =
      if e ∈ lin then
        (match ms.find? (fun m => decide (i ≠ m.2 ∧ occ e.2 = some (.mat m.1))) with
          | none => [.diel none (some mni)]
          | some m => if m.2 > i then [.diel (some m.1) (some mni)] else [])
      else [] := by
  induction ms with
  | nil => intro lin _ _; simp [dielWalls, wallsAt_cons]; rfl
  | cons m ms ih =>
    intro lin hms hlin
    obtain ⟨mno, o⟩ := m
    rw [dielWalls]
    by_cases hio : i = o
    · rw [if_pos hio, ih lin (fun x hx => hms x (List.mem_cons_of_mem _ hx)) hlin]
      simp [List.find?_cons, hio]
    · rw [if_neg hio]
      have hm := hms (mno, o) (by simp)
      have hk : Mk.mat mni ≠ Mk.mat mno := fun h => hm.2 hio (Mk.mat.inj h)
      obtain ⟨s1, s2⟩ := outside_step (k := .mat mni) hadj hs hm.1 hk hlin e
      rw [wallsAt_append, ih _ (fun x hx => hms x (List.mem_cons_of_mem _ hx)) (by
        intro e' he'
        exact hlin e' ((outside_step (k := .mat mni) hadj hs hm.1 hk hlin e').2.1 he').1)]
      simp only [s2, List.find?_cons]
      by_cases hoi : o > i
      · simp only [hoi, if_true, wallsAt_cons, s1]
        by_cases h1 : e ∈ lin <;> by_cases h2 : occ e.2 = some (.mat mno) <;> simp [h1, h2, hio, hoi, wallsAt]
      · by_cases h1 : e ∈ lin <;> by_cases h2 : occ e.2 = some (.mat mno) <;> simp [h1, h2, hio, hoi, wallsAt]

theorem find_name {ms : List String} (x : Option Mk) (h : ∀ m, x = some (.mat m) → m ∈ ms) :
    ms.find? (fun m => decide (x = some (.mat m))) = matOf x := by
  rcases x with _ | (n | m)
  · simp [matOf]
  · simp [matOf]
  · have hm := h m rfl
    have : ms.find? (fun m' => decide (some (Mk.mat m) = some (.mat m'))) = some m := by
      rcases hf : ms.find? (fun m' => decide (some (Mk.mat m) = some (.mat m'))) with _ | m'
      · rw [List.find?_eq_none] at hf
        exact absurd (by simp) (hf m hm)
      · have := List.find?_some hf
        simp at this
        rw [this]
    rw [this]; rfl

theorem mem_zipIdx_idxOf {ms : List String} (hn : ms.Nodup) {m : String} {i : Nat} (h : (m, i) ∈ ms.zipIdx) :
    m ∈ ms ∧ i = ms.idxOf m := by
  have h' := List.mem_zipIdx_iff_getElem?.1 h
  simp only at h'
  obtain ⟨hi, e⟩ := List.getElem?_eq_some_iff.1 h'
  refine ⟨e ▸ List.getElem_mem hi, ?_⟩
  rw [← e, hn.idxOf_getElem]

theorem zipIdx_mem {ms : List String} {m : String} (h : m ∈ ms) : (m, ms.idxOf m) ∈ ms.zipIdx := by
  rw [List.mem_zipIdx_iff_getElem?]
  have := List.idxOf_lt_length_iff.2 h
  simp [List.getElem?_eq_getElem this]

/-- The walls emitted on an edge are exactly the ones that belong there. -/
theorem emitWalls_at (hadj : ∀ e ∈ adj, e.swap ∈ adj) (hN : nets.Nodup) (hM : mats.Nodup)
    (hs : ∀ k ∈ keysOf nets mats, ∀ p, p ∈ state k ↔ occ p = some k)
    (ho : ∀ p k, occ p = some k → k ∈ keysOf nets mats) (e : P × P) :
    wallsAt e (emitWalls adj nets mats state) = if e ∈ adj then wallOf mats (occ e.1) (occ e.2) else [] := by
  have hall : ∀ p, p ∈ nets.foldl (fun r n => r ∪ state (.net n)) ∅ ↔ isNet (occ p) = true := by
    intro p
    have hf : ∀ (l : List String) (r : Finset P), p ∈ l.foldl (fun r n => r ∪ state (.net n)) r ↔
        p ∈ r ∨ ∃ n ∈ l, p ∈ state (.net n) := by
      intro l
      induction l with
      | nil => intro r; simp
      | cons n l ih => intro r; rw [List.foldl_cons, ih]; simp [or_assoc]
    rw [hf]
    simp only [Finset.notMem_empty, false_or]
    constructor
    · rintro ⟨n, hn, hp⟩
      rw [hs _ (mem_keysOf_net.2 hn)] at hp
      rw [hp]; rfl
    · intro h
      rcases hp : occ p with _ | (n | m)
      · rw [hp] at h; cases h
      · exact ⟨n, mem_keysOf_net.1 (ho p _ hp), (hs _ (ho p _ hp) p).2 hp⟩
      · rw [hp] at h; cases h
  have hlin : ∀ m ∈ mats, ∀ e, e ∈ eSub (edges adj (state (.mat m)))
      (edges adj (nets.foldl (fun r n => r ∪ state (.net n)) ∅)) ↔
      e ∈ adj ∧ occ e.1 = some (.mat m) ∧ occ e.2 ≠ some (.mat m) ∧ isNet (occ e.2) = false := by
    intro m hm e
    simp only [eSub, Finset.mem_filter, mem_edges hs (mem_keysOf_mat.2 hm)]
    simp only [edges, Finset.mem_filter, hall, Prod.fst_swap, Prod.snd_swap]
    constructor
    · rintro ⟨⟨h1, h2, h3⟩, h4⟩
      refine ⟨h1, h2, h3, ?_⟩
      cases hn : isNet (occ e.2) with
      | false => rfl
      | true => exact absurd (Or.inr ⟨hadj e h1, hn, by rw [h2]; simp [isNet]⟩) h4
    · rintro ⟨h1, h2, h3, h4⟩
      refine ⟨⟨h1, h2, h3⟩, ?_⟩
      rintro (⟨_, h5, _⟩ | ⟨_, h5, _⟩)
      · rw [h2] at h5; cases h5
      · rw [h4] at h5; cases h5
  have hmo : ∀ p m, occ p = some (.mat m) → m ∈ mats := fun p m h => mem_keysOf_mat.1 (ho p _ h)
  -- dielectric part for one material
  have hd : ∀ mi ∈ mats.zipIdx, wallsAt e (dielWalls adj state mi.1 mi.2 mats.zipIdx
      (eSub (edges adj (state (.mat mi.1))) (edges adj (nets.foldl (fun r n => r ∪ state (.net n)) ∅)))) =
      if e ∈ adj ∧ occ e.1 = some (.mat mi.1) then wallOf mats (occ e.1) (occ e.2) else [] := by
    rintro ⟨m, i⟩ hmi
    obtain ⟨hm, hi⟩ := mem_zipIdx_idxOf hM hmi
    rw [dielWalls_at hadj hs m i e mats.zipIdx]
    · simp only [hlin m hm]
      by_cases h1 : e ∈ adj ∧ occ e.1 = some (.mat m)
      · obtain ⟨h1, h2⟩ := h1
        simp only [h1, h2, true_and, and_self, if_true]
        rcases h3 : occ e.2 with _ | (n | m')
        · have : mats.zipIdx.find? (fun m => decide (i ≠ m.2 ∧ (none : Option Mk) = some (.mat m.1))) = none := by simp
          rw [this]
          simp [isNet, wallOf]
        · simp [isNet, wallOf]
        · by_cases h4 : m' = m
          · subst h4; simp [wallOf]
          · have hm' := hmo _ _ h3
            have hne : i ≠ mats.idxOf m' := by
              rw [hi]
              intro h
              exact h4 ((List.idxOf_inj hm).1 h).symm
            have hf : mats.zipIdx.find? (fun x => decide (i ≠ x.2 ∧ some (Mk.mat m') = some (.mat x.1))) =
                some (m', mats.idxOf m') := by
              rcases hf : mats.zipIdx.find? (fun x => decide (i ≠ x.2 ∧ some (Mk.mat m') = some (.mat x.1))) with _ | y
              · rw [List.find?_eq_none] at hf
                exact absurd (by simp [hne]) (hf _ (zipIdx_mem hm'))
              · obtain ⟨y1, y2⟩ := y
                have e1 := List.find?_some hf
                have e2 := mem_zipIdx_idxOf hM (List.mem_of_find?_eq_some hf)
                simp only [ne_eq, Option.some.injEq, Mk.mat.injEq, decide_eq_true_eq] at e1
                obtain ⟨_, rfl⟩ := e1
                rw [← e2.2]; exact hf
            rw [hf]
            have h4' : ¬ m = m' := fun h => h4 h.symm
            simp only [Option.some.injEq, Mk.mat.injEq, ne_eq, h4, not_false_eq_true, isNet, and_self, if_true, wallOf, h4',
              if_false, gt_iff_lt, hi]
      · rw [if_neg h1, if_neg]
        rintro ⟨h2, h3, _⟩
        exact h1 ⟨h2, h3⟩
    · rintro ⟨m', o⟩ hmo'
      obtain ⟨hm', ho'⟩ := mem_zipIdx_idxOf hM hmo'
      refine ⟨hm', fun hne h => hne ?_⟩
      simp only at h
      rw [hi, h, ho']
    · intro e' he'
      rw [hlin m hm] at he'
      exact ⟨he'.1, he'.2.1⟩
  -- conductor part for one net
  have hc : ∀ n ∈ nets, wallsAt e (condWalls adj state n mats (edges adj (state (.net n)))) =
      if e ∈ adj ∧ occ e.1 = some (.net n) then wallOf mats (occ e.1) (occ e.2) else [] := by
    intro n hn
    rw [condWalls_at hadj hs n e mats _ (fun _ h => h)]
    · simp only [mem_edges hs (mem_keysOf_net.2 hn), find_name _ (hmo e.2)]
      by_cases h1 : e ∈ adj ∧ occ e.1 = some (.net n)
      · obtain ⟨h1, h2⟩ := h1
        simp only [h1, h2, true_and, and_self, if_true, wallOf]
        by_cases h3 : occ e.2 = some (.net n)
        · simp [h3]
        · have h3' : ¬ some (Mk.net n) = occ e.2 := fun h => h3 h.symm
          simp [h3, h3']
      · rw [if_neg h1, if_neg]
        rintro ⟨h2, h3, _⟩
        exact h1 ⟨h2, h3⟩
    · intro e' he'
      rw [mem_edges hs (mem_keysOf_net.2 hn)] at he'
      exact ⟨he'.1, he'.2.1⟩
  have hMz : mats.zipIdx.Nodup := by
    apply List.Nodup.of_map Prod.fst
    rw [List.zipIdx_map_fst]
    exact hM
  unfold emitWalls
  simp only
  rw [wallsAt_append, wallsAt_flatMap, wallsAt_flatMap]
  by_cases he : e ∈ adj
  · rw [if_pos he]
    rcases h1 : occ e.1 with _ | (n | m)
    · rw [flatMap_eq_nil', flatMap_eq_nil']
      · unfold wallOf; split <;> rfl
      · intro n hn; rw [hc n hn, h1]; simp
      · intro mi hmi; rw [hd mi hmi, h1]; simp
    · have hn := mem_keysOf_net.1 (ho _ _ h1)
      rw [flatMap_eq_nil', flatMap_single hN hn]
      · rw [hc n hn, h1]; simp [he]
      · intro n' hn' hne
        have : ¬ n = n' := fun h => hne h.symm
        rw [hc n' hn', h1]; simp [this]
      · intro mi hmi; rw [hd mi hmi, h1]; simp
    · have hm := hmo _ _ h1
      rw [flatMap_single hMz (zipIdx_mem hm), flatMap_eq_nil', List.append_nil]
      · rw [hd _ (zipIdx_mem hm), h1]; simp [he]
      · intro n hn; rw [hc n hn, h1]; simp
      · rintro ⟨m', i⟩ hmi hne
        have e2 := mem_zipIdx_idxOf hM hmi
        have : ¬ m = m' := by
          rintro rfl
          exact hne (by rw [e2.2])
        rw [hd _ hmi, h1]; simp [this]
  · rw [if_neg he, flatMap_eq_nil', flatMap_eq_nil']
    · rfl
    · intro n hn; rw [hc n hn]; simp [he]
    · intro mi hmi; rw [hd mi hmi]; simp [he]

end
end Verif.Sweep
