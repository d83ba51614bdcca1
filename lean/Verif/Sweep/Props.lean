import Verif.Sweep.Run
import Mathlib.Data.Fintype.Basic
import Mathlib.Tactic.Linarith
import Mathlib.Tactic.NormNum

/-!
# Properties of the 3D sweep

* C14 `material_occupancy`, `heights_exact`, `height_rounding`: what the generator holds for a net or material after every height.
* C15 `materials_disjoint`, `no_overlap_error`: every point belongs to at most one material, by priority.
* C16 `interfaces_emitted`, `contacts_emitted`: every horizontal interface is emitted under the right pair of materials.
* C17 `no_spurious_partial`, `no_surface_inside`, `wrong_label_only_above`; `no_spurious_fails`, `no_spurious_fails_stack`:
  the full statement is false.
* C18 `walls_exact`, `walls_once`: vertical walls.
-/

namespace Verif.Sweep

variable {P : Type} [DecidableEq P]

/-! ### From the calls to the builder -/

/-- Keys of a dictionary filled in the given order. -/
def firsts (l : List String) : List String := l.foldl (fun ks n => if n ∈ ks then ks else ks ++ [n]) []

theorem firsts_snoc (l : List String) (n : String) :
    firsts (l ++ [n]) = if n ∈ firsts l then firsts l else firsts l ++ [n] := by
  rw [firsts, List.foldl_append]; rfl

theorem mem_firsts (l : List String) (n : String) : n ∈ firsts l ↔ n ∈ l := by
  induction l using List.reverseRecOn with
  | nil => simp [firsts]
  | append_singleton l m ih =>
    rw [firsts_snoc]
    by_cases h : m ∈ firsts l
    · rw [if_pos h, ih]
      simp only [List.mem_append, List.mem_singleton]
      constructor
      · exact Or.inl
      · rintro (h' | rfl)
        · exact h'
        · exact ih.1 h
    · rw [if_neg h]; simp [ih]

theorem firsts_idxOf (l : List String) {a b : String} (ha : a ∈ l) (hb : b ∈ l) :
    (firsts l).idxOf a < (firsts l).idxOf b ↔ l.idxOf a < l.idxOf b := by
  induction l using List.reverseRecOn with
  | nil => simp at ha
  | append_singleton l m ih =>
    rw [firsts_snoc]
    have key : ∀ x, x ∈ l → (l ++ [m]).idxOf x = l.idxOf x := fun x hx => List.idxOf_append_of_mem hx
    have key2 : m ∉ l → (l ++ [m]).idxOf m = l.length := by
      intro h; rw [List.idxOf_append_of_notMem h]; simp
    have mem : ∀ x, x ∈ l ++ [m] → x ∈ l ∨ (x = m ∧ m ∉ l) := by
      intro x hx
      by_cases h : x ∈ l
      · exact Or.inl h
      · simp only [List.mem_append, h, List.mem_singleton, false_or] at hx
        subst hx
        exact Or.inr ⟨rfl, h⟩
    by_cases h : m ∈ firsts l
    · rw [if_pos h]
      have hm := (mem_firsts l m).1 h
      have ha' : a ∈ l := (mem a ha).elim id (fun h' => absurd hm h'.2)
      have hb' : b ∈ l := (mem b hb).elim id (fun h' => absurd hm h'.2)
      rw [key a ha', key b hb']
      exact ih ha' hb'
    · rw [if_neg h]
      have hm : m ∉ l := fun h' => h ((mem_firsts l m).2 h')
      have kf : ∀ x, x ∈ l → (firsts l ++ [m]).idxOf x = (firsts l).idxOf x :=
        fun x hx => List.idxOf_append_of_mem ((mem_firsts l x).2 hx)
      have kf2 : (firsts l ++ [m]).idxOf m = (firsts l).length := by
        rw [List.idxOf_append_of_notMem h]; simp
      rcases mem a ha with ha' | ⟨rfl, _⟩ <;> rcases mem b hb with hb' | ⟨rfl, _⟩
      · rw [key a ha', key b hb', kf a ha', kf b hb']; exact ih ha' hb'
      · rw [key a ha', key2 hm, kf a ha', kf2]
        have h1 := List.idxOf_lt_length_iff.2 ((mem_firsts l a).2 ha')
        have h2 := List.idxOf_lt_length_iff.2 ha'
        exact ⟨fun _ => h2, fun _ => h1⟩
      · rw [key b hb', key2 hm, kf b hb', kf2]
        have h1 := List.idxOf_lt_length_iff.2 ((mem_firsts l b).2 hb')
        have h2 := List.idxOf_lt_length_iff.2 hb'
        omega
      · omega

/-- The layer a call adds. -/
def callLayer (dbu : ℚ) : Call P → Option (Mk × (Finset P × Int × Int))
  | .material _ _ => none
  | .dielectric n l z h => some (.mat n, (l, z2norm dbu z, z2norm dbu (z + h)))
  | .conductor n l z h => some (.net n, (l, z2norm dbu z, z2norm dbu (z + h)))

/-- What the builder holds after the calls. -/
structure Built (dbu : ℚ) (calls : List (Call P)) (b : Builder P) : Prop where
  unit : b.dbu = dbu
  ckeys : b.clayers.keys = firsts (netNames calls)
  mkeys : b.materials.keys = firsts (matNames calls)
  cnodup : b.clayers.keys.Nodup
  dnodup : b.dlayers.keys.Nodup
  mnodup : b.materials.keys.Nodup
  layers : ∀ mk l, l ∈ layersOf b mk ↔ ∃ c ∈ calls, callLayer dbu c = some (mk, l)
  known : ∀ n, (∃ l, l ∈ layersOf b (.mat n)) → n ∈ b.materials.keys

theorem mem_upd_layers (d : Layers P) (hd : d.keys.Nodup) (n n' : String) (x l : Finset P × Int × Int) :
    (∃ v, (n', v) ∈ d.upd n [] (· ++ [x]) ∧ l ∈ v) ↔ (∃ v, (n', v) ∈ d ∧ l ∈ v) ∨ (n' = n ∧ l = x) := by
  have hd' : (d.upd n [] (· ++ [x])).keys.Nodup := Dict.nodup_keys_upd _ _ _ _ hd
  simp only [Dict.mem_iff_get? hd', Dict.mem_iff_get? hd, Dict.get?_upd]
  by_cases e : n = n'
  · subst e
    simp only [if_true, Option.some.injEq, exists_eq_left', List.mem_append, List.mem_singleton, true_and, Dict.getD]
    cases h : d.get? n <;> simp
  · have e' : ¬ n' = n := fun h => e h.symm
    simp [e, e']

theorem built_nil (dbu : ℚ) : Built dbu ([] : List (Call P)) { dbu := dbu } := by
  constructor <;> simp [netNames, matNames, firsts, layersOf, Dict.keys]
  · intro mk l; cases mk <;> simp

theorem built_snoc {dbu : ℚ} {calls : List (Call P)} {b b' : Builder P} (h : Built dbu calls b) (c : Call P)
    (hc : b.call c = .ok b') : Built dbu (calls ++ [c]) b' := by
  have hl := h.layers
  have hk := h.known
  cases c with
  | material n k =>
    simp only [Builder.call, Except.ok.injEq] at hc
    subst hc
    have hlay : ∀ mk, layersOf (b.addMaterial n k) mk = layersOf b mk := by intro mk; cases mk <;> rfl
    refine ⟨h.unit, ?_, ?_, h.cnodup, h.dnodup, Dict.nodup_keys_set _ _ _ h.mnodup, ?_, ?_⟩
    · show b.clayers.keys = _
      rw [h.ckeys]; simp [netNames]
    · show (b.materials.set n k).keys = _
      have e : matNames (calls ++ [.material n k]) = matNames calls ++ [n] := by simp [matNames]
      rw [Dict.keys_set, h.mkeys, e, firsts_snoc]
    · intro mk l
      rw [hlay, hl]
      simp [callLayer]
    · intro m hm
      simp only [hlay] at hm
      show m ∈ (b.materials.set n k).keys
      rw [Dict.mem_keys_set]
      exact Or.inr (hk m hm)
  | dielectric n l z ht =>
    simp only [Builder.call, Builder.addDielectric] at hc
    by_cases hh : b.materials.has n = false
    · rw [if_pos hh] at hc; cases hc
    · rw [if_neg hh] at hc
      simp only [Except.ok.injEq] at hc
      have hn : n ∈ b.materials.keys := (Dict.has_iff _ _).1 (by simpa using hh)
      subst hc
      refine ⟨h.unit, ?_, ?_, h.cnodup, (by exact Dict.nodup_keys_upd b.dlayers n [] (· ++ [(l, z2norm b.dbu z, z2norm b.dbu (z + ht))]) h.dnodup), h.mnodup, ?_, ?_⟩
      · show b.clayers.keys = _
        rw [h.ckeys]; simp [netNames]
      · show b.materials.keys = _
        rw [h.mkeys]; simp [matNames]
      · intro mk l'
        cases mk with
        | net n' =>
          show l' ∈ layersOf b (.net n') ↔ _
          rw [hl]
          simp [callLayer]
        | mat n' =>
          rw [mem_layersOf_mat]
          show (∃ v, (n', v) ∈ b.dlayers.upd n [] (· ++ [(l, z2norm b.dbu z, z2norm b.dbu (z + ht))]) ∧ l' ∈ v) ↔ _
          rw [mem_upd_layers _ h.dnodup, ← mem_layersOf_mat, hl, h.unit]
          simp only [List.mem_append, List.mem_singleton, or_and_right, exists_or, exists_eq_left, callLayer,
            Option.some.injEq, Prod.mk.injEq, Mk.mat.injEq]
          constructor
          · rintro (h' | ⟨rfl, rfl⟩)
            · exact Or.inl h'
            · exact Or.inr ⟨rfl, rfl⟩
          · rintro (h' | ⟨rfl, rfl⟩)
            · exact Or.inl h'
            · exact Or.inr ⟨rfl, rfl⟩
      · rintro m ⟨l', hl'⟩
        show m ∈ b.materials.keys
        rw [mem_layersOf_mat] at hl'
        replace hl' : (∃ v, (m, v) ∈ b.dlayers.upd n [] (· ++ [(l, z2norm b.dbu z, z2norm b.dbu (z + ht))]) ∧ l' ∈ v) := hl'
        rw [mem_upd_layers _ h.dnodup, ← mem_layersOf_mat] at hl'
        rcases hl' with hl' | ⟨rfl, _⟩
        · exact hk m ⟨l', hl'⟩
        · exact hn
  | conductor n l z ht =>
    simp only [Builder.call, Except.ok.injEq] at hc
    subst hc
    refine ⟨h.unit, ?_, ?_, (by exact Dict.nodup_keys_upd b.clayers n [] (· ++ [(l, z2norm b.dbu z, z2norm b.dbu (z + ht))]) h.cnodup), h.dnodup, h.mnodup, ?_, ?_⟩
    · have e : netNames (calls ++ [.conductor n l z ht]) = netNames calls ++ [n] := by simp [netNames]
      rw [e, firsts_snoc]
      show (Dict.set b.clayers n _).keys = _
      rw [Dict.keys_set, h.ckeys]
    · show b.materials.keys = _
      rw [h.mkeys]; simp [matNames]
    · intro mk l'
      cases mk with
      | mat n' =>
        show l' ∈ layersOf b (.mat n') ↔ _
        rw [hl]
        simp [callLayer]
      | net n' =>
        rw [mem_layersOf_net]
        show (∃ v, (n', v) ∈ b.clayers.upd n [] (· ++ [(l, z2norm b.dbu z, z2norm b.dbu (z + ht))]) ∧ l' ∈ v) ↔ _
        rw [mem_upd_layers _ h.cnodup, ← mem_layersOf_net, hl, h.unit]
        simp only [List.mem_append, List.mem_singleton, or_and_right, exists_or, exists_eq_left, callLayer,
          Option.some.injEq, Prod.mk.injEq, Mk.net.injEq]
        constructor
        · rintro (h' | ⟨rfl, rfl⟩)
          · exact Or.inl h'
          · exact Or.inr ⟨rfl, rfl⟩
        · rintro (h' | ⟨rfl, rfl⟩)
          · exact Or.inl h'
          · exact Or.inr ⟨rfl, rfl⟩
    · rintro m ⟨l', hl'⟩
      exact hk m ⟨l', hl'⟩

theorem build_built {dbu : ℚ} {calls : List (Call P)} {b : Builder P} (h : build dbu calls = .ok b) :
    Built dbu calls b := by
  have key : ∀ (todo done : List (Call P)) (b0 : Builder P), Built dbu done b0 →
      todo.foldlM Builder.call b0 = .ok b → Built dbu (done ++ todo) b := by
    intro todo
    induction todo with
    | nil =>
      intro done b0 h0 h1
      simp only [List.foldlM_nil, pure, Except.pure, Except.ok.injEq] at h1
      subst h1
      simpa using h0
    | cons c todo ih =>
      intro done b0 h0 h1
      rw [List.foldlM_cons] at h1
      cases hc : b0.call c with
      | error e => rw [hc] at h1; simp [bind, Except.bind] at h1
      | ok b1 =>
        rw [hc] at h1
        have := ih (done ++ [c]) b1 (built_snoc h0 c hc) h1
        simpa using this
  simpa using key calls [] _ (built_nil dbu) h

theorem drawn_iff {dbu : ℚ} {calls : List (Call P)} {b : Builder P} (h : Built dbu calls b) (mk : Mk) (k : Int) (p : P) :
    Drawn dbu calls mk k p ↔ p ∈ cover b k mk := by
  rw [mem_cover]
  constructor
  · rintro ⟨c, hc, hcov⟩
    cases c with
    | material n k => cases hcov
    | dielectric n l z ht =>
      obtain ⟨rfl, h1, h2, h3⟩ := hcov
      exact ⟨_, (h.layers _ _).2 ⟨_, hc, rfl⟩, h1, h2, h3⟩
    | conductor n l z ht =>
      obtain ⟨rfl, h1, h2, h3⟩ := hcov
      exact ⟨_, (h.layers _ _).2 ⟨_, hc, rfl⟩, h1, h2, h3⟩
  · rintro ⟨l, hl, h1, h2, h3⟩
    obtain ⟨c, hc, e⟩ := (h.layers _ _).1 hl
    refine ⟨c, hc, ?_⟩
    cases c with
    | material n k => cases e
    | dielectric n l z ht => cases e; exact ⟨rfl, h1, h2, h3⟩
    | conductor n l z ht => cases e; exact ⟨rfl, h1, h2, h3⟩

theorem drawn_known {dbu : ℚ} {calls : List (Call P)} {b : Builder P} (h : Built dbu calls b) {mk : Mk} {k : Int} {p : P}
    (hd : Drawn dbu calls mk k p) : mk ∈ keysB b := by
  rw [drawn_iff h, mem_cover] at hd
  obtain ⟨l, hl, _⟩ := hd
  cases mk with
  | net n =>
    obtain ⟨v, hv, _⟩ := (mem_layersOf_net _ _ _).1 hl
    exact mem_keysOf_net.2 ((Dict.mem_keys _ _).2 ⟨v, hv⟩)
  | mat n => exact mem_keysOf_mat.2 (h.known n ⟨l, hl⟩)

theorem find_first {l : List String} {q : String → Bool} {a b : String} (h : l.find? q = some a) (hb : b ∈ l)
    (hq : q b = true) (hne : b ≠ a) : l.idxOf a < l.idxOf b := by
  induction l with
  | nil => simp at hb
  | cons x l ih =>
    rw [List.find?_cons] at h
    cases hx : q x with
    | true =>
      rw [hx] at h
      simp only [Option.some.injEq] at h
      subst h
      have : ¬ x = b := fun e => hne e.symm
      simp [List.idxOf_cons, this]
    | false =>
      rw [hx] at h
      have h1 : ¬ x = b := by rintro rfl; rw [hq] at hx; cases hx
      have h2 : ¬ x = a := by
        rintro rfl
        have := List.find?_some h
        rw [this] at hx; cases hx
      have hb' : b ∈ l := by
        rcases List.mem_cons.1 hb with e | hb
        · exact absurd e.symm h1
        · exact hb
      have := ih h hb'
      rw [List.idxOf_cons_ne _ h1, List.idxOf_cons_ne _ h2]
      omega

theorem firstOf_net_find {cov : Mk → Finset P} {nets mats : List String} {p : P} {n : String}
    (h : firstOf cov (keysOf nets mats) p = some (.net n)) :
    nets.find? (fun m => decide (p ∈ cov (.net m))) = some n := by
  rw [keysOf, firstOf_append] at h
  rcases hf : firstOf cov (nets.map Mk.net) p with _ | k
  · rw [hf, Option.none_or] at h
    have := (firstOf_some_mem h).1
    simp at this
  · rw [hf, Option.some_or] at h
    cases h
    rw [firstOf, List.find?_map] at hf
    simp only [Option.map_eq_some_iff] at hf
    obtain ⟨m', hm', e⟩ := hf
    cases e
    exact hm'

/-- The generator's assignment of points to materials is the specified one. -/
theorem occ_occupant {dbu : ℚ} {calls : List (Call P)} {b : Builder P} (h : Built dbu calls b) (k : Int) (p : P) :
    Occupant dbu calls k p (occ b k p) := by
  rcases hk : occ b k p with _ | mk
  · intro mk hd
    have hm := drawn_known h hd
    rw [drawn_iff h] at hd
    rw [occ, firstOf_none] at hk
    exact hk mk hm hd
  · refine ⟨(drawn_iff h _ _ _).2 (firstOf_some_mem hk).2, ?_⟩
    intro mk' hd hne
    have hm := drawn_known h hd
    rw [drawn_iff h] at hd
    cases mk with
    | net n =>
      have hf := firstOf_net_find hk
      have hn := (firstOf_net hk).1
      cases mk' with
      | mat m' => exact trivial
      | net n' =>
        have hn' := mem_keysOf_net.1 hm
        have := find_first hf hn' (by simpa using hd) (fun e => hne (by rw [e]))
        rw [h.ckeys] at this hn hn'
        rw [mem_firsts] at hn hn'
        exact (firsts_idxOf _ hn hn').1 this
    | mat m =>
      obtain ⟨h1, hf⟩ := firstOf_mat hk
      cases mk' with
      | net n' => exact absurd hd (h1 n' (mem_keysOf_net.1 hm))
      | mat m' =>
        have hn := mem_keysOf_mat.1 (firstOf_some_mem hk).1
        have hn' := mem_keysOf_mat.1 hm
        have := find_first hf hn' (by simpa using hd) (fun e => hne (by rw [e]))
        rw [h.mkeys] at this hn hn'
        rw [mem_firsts] at hn hn'
        exact (firsts_idxOf _ hn hn').1 this

/-- There is exactly one occupant. -/
theorem occupant_unique {dbu : ℚ} {calls : List (Call P)} {k : Int} {p : P} {x y : Option Mk}
    (hx : Occupant dbu calls k p x) (hy : Occupant dbu calls k p y) : x = y := by
  cases x with
  | none =>
    cases y with
    | none => rfl
    | some b => exact absurd hy.1 (hx b)
  | some a =>
    cases y with
    | none => exact absurd hx.1 (hy a)
    | some b =>
      by_contra hne
      have hne' : b ≠ a := fun e => hne (by rw [e])
      have h1 := hx.2 b hy.1 hne'
      have h2 := hy.2 a hx.1 (Ne.symm hne')
      cases a <;> cases b <;> simp only [Before] at h1 h2 <;> omega

theorem occ_eq {dbu : ℚ} {calls : List (Call P)} {b : Builder P} (h : Built dbu calls b) {k : Int} {p : P} {x : Option Mk}
    (hx : Occupant dbu calls k p x) : occ b k p = x := occupant_unique (occ_occupant h k p) hx

/-! ### C14, C15 -/

/-- The heights at which the generator stops are exactly the (rounded) bottoms and tops of the layers. -/
theorem heights_exact {dbu : ℚ} {calls : List (Call P)} {b : Builder P} (hb : build dbu calls = .ok b) (x : Int) :
    x ∈ b.heights ↔ ∃ c ∈ calls, (∃ n l z h, c = .dielectric n l z h ∧ (x = z2norm dbu z ∨ x = z2norm dbu (z + h))) ∨
      (∃ n l z h, c = .conductor n l z h ∧ (x = z2norm dbu z ∨ x = z2norm dbu (z + h))) := by
  have h := build_built hb
  rw [mem_heights]
  constructor
  · rintro ⟨mk, l, hl, hx⟩
    obtain ⟨c, hc, e⟩ := (h.layers _ _).1 hl
    refine ⟨c, hc, ?_⟩
    cases c with
    | material n k => cases e
    | dielectric n l z ht => cases e; exact Or.inl ⟨n, _, z, ht, rfl, hx⟩
    | conductor n l z ht => cases e; exact Or.inr ⟨n, _, z, ht, rfl, hx⟩
  · rintro ⟨c, hc, ⟨n, l, z, ht, rfl, hx⟩ | ⟨n, l, z, ht, rfl, hx⟩⟩
    · exact ⟨_, _, (h.layers _ _).2 ⟨_, hc, rfl⟩, hx⟩
    · exact ⟨_, _, (h.layers _ _).2 ⟨_, hc, rfl⟩, hx⟩

/-- **C14.** After the sweep has finished a height, the region the generator holds for a net or material is exactly what
the calls drew in the slabs above it, up to the next height. -/
theorem material_occupancy {adj : Finset (P × P)} (hadj : ∀ e ∈ adj, e.swap ∈ adj) {dbu : ℚ} (hdbu : 0 < dbu)
    {calls : List (Call P)} {b : Builder P} (hb : build dbu calls = .ok b) (done : List Int) (z : Int) (todo : List Int)
    (hz : b.heights = done ++ z :: todo) (k : Int) (hk : z ≤ k) (hk' : ∀ z' ∈ todo, k < z') (mk : Mk)
    (hmk : (∃ n, mk = .net n ∧ n ∈ netNames calls) ∨ (∃ m, mk = .mat m ∧ m ∈ matNames calls)) (p : P) :
    p ∈ (((done ++ [z]).foldl (b.plane adj) (initGen b)).current mk).headD ∅ ↔ Drawn dbu calls mk k p := by
  have h := build_built hb
  have hi := run_prefix hadj (by rw [h.unit]; exact hdbu) h.cnodup h.mnodup done z todo hz
  have hmem : mk ∈ keysB b := by
    rcases hmk with ⟨n, rfl, hn⟩ | ⟨n, rfl, hn⟩
    · exact mem_keysOf_net.2 (by rw [h.ckeys, mem_firsts]; exact hn)
    · exact mem_keysOf_mat.2 (by rw [h.mkeys, mem_firsts]; exact hn)
  have hs := hi.ready.settled mk (by rw [hi.nets, hi.mats]; exact hmem)
  rw [hs.headD, drawn_iff h]
  rw [cover_const b (k := z) (k' := k)]
  intro x hx
  rw [hz] at hx
  have hsorted := heights_sorted b
  rw [hz, List.pairwise_append] at hsorted
  rcases List.mem_append.1 hx with hx | hx
  · have := hsorted.2.2 x hx z (by simp); omega
  · rcases List.mem_cons.1 hx with rfl | hx
    · omega
    · have h1 := hk' x hx
      have h2 := (List.pairwise_cons.1 hsorted.2.1).1 x hx
      omega

/-- **C15.** After every height, a point belongs to the legalised region of exactly its occupant: of the nets and
materials drawn there, the one with the highest priority (nets before dielectrics, earlier before later). -/
theorem materials_disjoint {adj : Finset (P × P)} (hadj : ∀ e ∈ adj, e.swap ∈ adj) {dbu : ℚ} (hdbu : 0 < dbu)
    {calls : List (Call P)} {b : Builder P} (hb : build dbu calls = .ok b) (done : List Int) (z : Int) (todo : List Int)
    (hz : b.heights = done ++ z :: todo) (p : P) :
    let g := (done ++ [z]).foldl (b.plane adj) (initGen b)
    (∀ mk, ((∃ n, mk = .net n ∧ n ∈ netNames calls) ∨ (∃ m, mk = .mat m ∧ m ∈ matNames calls)) →
      (p ∈ g.state mk ↔ Occupant dbu calls z p (some mk))) ∧
    (∀ mk mk', ((∃ n, mk = .net n ∧ n ∈ netNames calls) ∨ (∃ m, mk = .mat m ∧ m ∈ matNames calls)) →
      ((∃ n, mk' = .net n ∧ n ∈ netNames calls) ∨ (∃ m, mk' = .mat m ∧ m ∈ matNames calls)) →
      p ∈ g.state mk → p ∈ g.state mk' → mk = mk') ∧
    ((∃ mk, Drawn dbu calls mk z p) → ∃ mk, ((∃ n, mk = .net n ∧ n ∈ netNames calls) ∨
      (∃ m, mk = .mat m ∧ m ∈ matNames calls)) ∧ p ∈ g.state mk) := by
  have h := build_built hb
  have hi := run_prefix hadj (by rw [h.unit]; exact hdbu) h.cnodup h.mnodup done z todo hz
  intro g
  have hkeys : ∀ mk, ((∃ n, mk = Mk.net n ∧ n ∈ netNames calls) ∨ (∃ m, mk = .mat m ∧ m ∈ matNames calls)) ↔
      mk ∈ keysB b := by
    intro mk
    cases mk with
    | net n =>
      rw [keysB, mem_keysOf_net, h.ckeys, mem_firsts]; simp
    | mat n =>
      rw [keysB, mem_keysOf_mat, h.mkeys, mem_firsts]; simp
  have hst : ∀ mk ∈ keysB b, (p ∈ g.state mk ↔ occ b z p = some mk) := by
    intro mk hmk
    have := hi.ready.state mk (by rw [hi.nets, hi.mats]; exact hmk) p
    rw [hi.nets, hi.mats] at this
    exact this
  refine ⟨?_, ?_, ?_⟩
  · intro mk hmk
    rw [hst mk ((hkeys mk).1 hmk)]
    constructor
    · intro e
      have := occ_occupant h z p
      rw [e] at this
      exact this
    · exact occ_eq h
  · intro mk mk' h1 h2 h3 h4
    rw [hst mk ((hkeys mk).1 h1)] at h3
    rw [hst mk' ((hkeys mk').1 h2), h3] at h4
    exact Option.some.inj h4
  · rintro ⟨mk, hd⟩
    rcases ho : occ b z p with _ | mk'
    · have := occ_occupant h z p
      rw [ho] at this
      exact absurd hd (this mk)
    · have hmem := (firstOf_some_mem ho).1
      exact ⟨mk', (hkeys mk').2 hmem, (hst mk' hmem).2 ho⟩

/-- **C15.** The generator's own check for overlapping regions never fires. -/
theorem no_overlap_error {adj : Finset (P × P)} (hadj : ∀ e ∈ adj, e.swap ∈ adj) {dbu : ℚ} (hdbu : 0 < dbu)
    {calls : List (Call P)} {b : Builder P} (hb : build dbu calls = .ok b) {g : Gen P} (hg : b.generate adj = some g) :
    g.overlapErrors = 0 := by
  have h := build_built hb
  exact (run_final hadj (by rw [h.unit]; exact hdbu) h.cnodup h.mnodup hg).1

/-! ### C16, C17 -/

/-- **C16.** Wherever the occupant below a height differs from the one above, and they are not two nets, the surface
between exactly these two is emitted. -/
theorem interfaces_emitted {adj : Finset (P × P)} (hadj : ∀ e ∈ adj, e.swap ∈ adj) {dbu : ℚ} (hdbu : 0 < dbu)
    {calls : List (Call P)} {b : Builder P} (hb : build dbu calls = .ok b) {g : Gen P} (hg : b.generate adj = some g)
    (k : Int) (p : P) {below above : Option Mk} (h1 : Occupant dbu calls (k - 1) p below)
    (h2 : Occupant dbu calls k p above) (hne : below ≠ above) (hnn : ¬ (isNet below = true ∧ isNet above = true)) :
    faceOf below above ∈ hfacesAt g k p := by
  have h := build_built hb
  have hF := (run_final hadj (by rw [h.unit]; exact hdbu) h.cnodup h.mnodup hg).2.2.1 k p
  have e1 := occ_eq h h1
  have e2 := occ_eq h h2
  rcases hF with ⟨_, e⟩ | ⟨din, dout, cin, cout, E, hL⟩
  · rw [e1, e2] at e; exact absurd e hne
  · rw [hL, ← e1, ← e2]
    refine emit_complete E p ?_ ?_
    · show occ b (k - 1) p ≠ occ b k p
      rw [e1, e2]; exact hne
    · show ¬ (isNet (occ b (k - 1) p) = true ∧ isNet (occ b k p) = true)
      rw [e1, e2]; exact hnn

/-- **C16.** Where two different nets touch, the bottom surface of the upper net is emitted. -/
theorem contacts_emitted {adj : Finset (P × P)} (hadj : ∀ e ∈ adj, e.swap ∈ adj) {dbu : ℚ} (hdbu : 0 < dbu)
    {calls : List (Call P)} {b : Builder P} (hb : build dbu calls = .ok b) {g : Gen P} (hg : b.generate adj = some g)
    (k : Int) (p : P) {n n' : String} (h1 : Occupant dbu calls (k - 1) p (some (.net n')))
    (h2 : Occupant dbu calls k p (some (.net n))) (hne : n' ≠ n) :
    ∃ x, Face.bottom n x ∈ hfacesAt g k p := by
  have h := build_built hb
  have hF := (run_final hadj (by rw [h.unit]; exact hdbu) h.cnodup h.mnodup hg).2.2.1 k p
  have e1 := occ_eq h h1
  have e2 := occ_eq h h2
  rcases hF with ⟨_, e⟩ | ⟨din, dout, cin, cout, E, hL⟩
  · rw [e1, e2] at e; simp at e; exact absurd e hne
  · rw [hL]
    refine emit_contact E p n ?_ e2
    show occ b (k - 1) p ≠ occ b k p
    rw [e1, e2]; simp [hne]

/-- **C17**, unconditional part: no surface is emitted inside a material. -/
theorem no_surface_inside {adj : Finset (P × P)} (hadj : ∀ e ∈ adj, e.swap ∈ adj) {dbu : ℚ} (hdbu : 0 < dbu)
    {calls : List (Call P)} {b : Builder P} (hb : build dbu calls = .ok b) {g : Gen P} (hg : b.generate adj = some g)
    (k : Int) (p : P) {m : Option Mk} (h1 : Occupant dbu calls (k - 1) p m) (h2 : Occupant dbu calls k p m) :
    hfacesAt g k p = [] := by
  have h := build_built hb
  have hF := (run_final hadj (by rw [h.unit]; exact hdbu) h.cnodup h.mnodup hg).2.2.1 k p
  rcases hF with ⟨hL, _⟩ | ⟨din, dout, cin, cout, E, hL⟩
  · exact hL
  · rw [hL]
    exact emit_same E p ((occ_eq h h1).trans (occ_eq h h2).symm)

/-- **C17**, proved part: if neither different nets nor different dielectrics are drawn over each other at the point,
just below and just above the height, and no two nets touch there, then exactly the right surface is emitted, once.
Missing: stacks with overlapping dielectrics, for which the statement is false (`no_spurious_fails`). -/
theorem no_spurious_partial {adj : Finset (P × P)} (hadj : ∀ e ∈ adj, e.swap ∈ adj) {dbu : ℚ} (hdbu : 0 < dbu)
    {calls : List (Call P)} {b : Builder P} (hb : build dbu calls = .ok b) {g : Gen P} (hg : b.generate adj = some g)
    (k : Int) (p : P) {below above : Option Mk} (h1 : Occupant dbu calls (k - 1) p below)
    (h2 : Occupant dbu calls k p above) (x1 : Exclusive dbu calls (k - 1) p) (x2 : Exclusive dbu calls k p)
    (hnn : ¬ (isNet below = true ∧ isNet above = true)) :
    hfacesAt g k p = if below = above then [] else [faceOf below above] := by
  by_cases hne : below = above
  · subst hne
    rw [if_pos rfl]
    exact no_surface_inside hadj hdbu hb hg k p h1 h2
  · rw [if_neg hne]
    have h := build_built hb
    have hF := (run_final hadj (by rw [h.unit]; exact hdbu) h.cnodup h.mnodup hg).2.2.1 k p
    have e1 := occ_eq h h1
    have e2 := occ_eq h h2
    rcases hF with ⟨_, e⟩ | ⟨din, dout, cin, cout, E, hL⟩
    · rw [e1, e2] at e; exact absurd e hne
    · rw [hL, ← e1, ← e2]
      refine emit_exact E p h.cnodup h.mnodup ?_ ?_ ?_ ?_ ?_ ?_
      · show occ b (k - 1) p ≠ occ b k p
        rw [e1, e2]; exact hne
      · show ¬ (isNet (occ b (k - 1) p) = true ∧ isNet (occ b k p) = true)
        rw [e1, e2]; exact hnn
      · intro n _ n' _ a1 a2; exact x2.1 n n' ((drawn_iff h _ _ _).2 a1) ((drawn_iff h _ _ _).2 a2)
      · intro n _ n' _ a1 a2; exact x1.1 n n' ((drawn_iff h _ _ _).2 a1) ((drawn_iff h _ _ _).2 a2)
      · intro n _ n' _ a1 a2; exact x2.2 n n' ((drawn_iff h _ _ _).2 a1) ((drawn_iff h _ _ _).2 a2)
      · intro n _ n' _ a1 a2; exact x1.2 n n' ((drawn_iff h _ _ _).2 a1) ((drawn_iff h _ _ _).2 a2)

/-- **C17**, what can go wrong at most: a dielectric surface always lies on an interface and always names the true
material below. If it names a material above, that one is at least drawn there (but it may be hidden by another); if it
names the void, there is void. -/
theorem wrong_label_only_above {adj : Finset (P × P)} (hadj : ∀ e ∈ adj, e.swap ∈ adj) {dbu : ℚ} (hdbu : 0 < dbu)
    {calls : List (Call P)} {b : Builder P} (hb : build dbu calls = .ok b) {g : Gen P} (hg : b.generate adj = some g)
    (k : Int) (p : P) (lo hi : Option String) (hf : Face.diel lo hi ∈ hfacesAt g k p) {below above : Option Mk}
    (h1 : Occupant dbu calls (k - 1) p below) (h2 : Occupant dbu calls k p above) :
    below ≠ above ∧ below = lo.map Mk.mat ∧
    (hi = none → above = none) ∧ (∀ m, hi = some m → Drawn dbu calls (.mat m) k p) := by
  have h := build_built hb
  have hF := (run_final hadj (by rw [h.unit]; exact hdbu) h.cnodup h.mnodup hg).2.2.1 k p
  have e1 := occ_eq h h1
  have e2 := occ_eq h h2
  rcases hF with ⟨hL, _⟩ | ⟨din, dout, cin, cout, E, hL⟩
  · rw [hL] at hf; simp at hf
  · rw [hL] at hf
    obtain ⟨a1, a2, a3⟩ := emit_diel_label E p lo hi hf
    have a1' : occ b (k - 1) p ≠ occ b k p := a1
    have a2' : occ b (k - 1) p = lo.map Mk.mat := a2
    rw [e1, e2] at a1'
    rw [e1] at a2'
    refine ⟨a1', a2', ?_, ?_⟩
    · rintro rfl
      have a3' : occ b k p = none := a3
      rw [e2] at a3'; exact a3'
    · rintro m rfl
      exact (drawn_iff h _ _ _).2 a3.2

/-! ### C18 -/

theorem wallOf_order {calls : List (Call P)} {b : Builder P} {dbu : ℚ} (h : Built dbu calls b) {k k' : Int} {p q : P} :
    wallOf b.materials.keys (occ b k p) (occ b k' q) = wallOf (matNames calls) (occ b k p) (occ b k' q) := by
  unfold wallOf
  by_cases e : occ b k p = occ b k' q
  · rw [if_pos e, if_pos e]
  · rw [if_neg e, if_neg e]
    rcases h1 : occ b k p with _ | (n | m)
    · rfl
    · rfl
    · rcases h2 : occ b k' q with _ | (n' | m')
      · rfl
      · rfl
      · have hm := mem_keysOf_mat.1 (firstOf_some_mem h1).1
        have hm' := mem_keysOf_mat.1 (firstOf_some_mem h2).1
        rw [h.mkeys, mem_firsts] at hm hm'
        simp only [h.mkeys, firsts_idxOf _ hm hm']

/-- **C18.** In every slab and on every edge (pair of neighbouring cells, inside and outside), exactly the walls of the
specification are emitted, each once. -/
theorem walls_exact {adj : Finset (P × P)} (hadj : ∀ e ∈ adj, e.swap ∈ adj) {dbu : ℚ} (hdbu : 0 < dbu)
    {calls : List (Call P)} {b : Builder P} (hb : build dbu calls = .ok b) {g : Gen P} (hg : b.generate adj = some g)
    (k : Int) (p q : P) {x y : Option Mk} (h1 : Occupant dbu calls k p x) (h2 : Occupant dbu calls k q y) :
    vwallsAt g k (p, q) = if (p, q) ∈ adj then wallOf (matNames calls) x y else [] := by
  have h := build_built hb
  have hW := (run_final hadj (by rw [h.unit]; exact hdbu) h.cnodup h.mnodup hg).2.2.2 k (p, q)
  rw [hW]
  simp only [wallOf_order h]
  rw [occ_eq h h1, occ_eq h h2]

/-- **C18.** Between two neighbouring cells (counting both directions of the edge): no wall if the occupants are equal;
otherwise exactly one wall, to the net if there is a net on one side, else one for the pair of dielectrics (or dielectric
and void); and two walls, one per net, between two different nets. -/
theorem walls_once {adj : Finset (P × P)} (hadj : ∀ e ∈ adj, e.swap ∈ adj) {dbu : ℚ} (hdbu : 0 < dbu)
    {calls : List (Call P)} {b : Builder P} (hb : build dbu calls = .ok b) {g : Gen P} (hg : b.generate adj = some g)
    (k : Int) (p q : P) (he : (p, q) ∈ adj) {x y : Option Mk} (h1 : Occupant dbu calls k p x)
    (h2 : Occupant dbu calls k q y) :
    (x = y → vwallsAt g k (p, q) ++ vwallsAt g k (q, p) = []) ∧
    (∀ n, x = some (.net n) → x ≠ y → isNet y = false →
      vwallsAt g k (p, q) ++ vwallsAt g k (q, p) = [.cond n (matOf y)]) ∧
    (∀ m m', x = some (.mat m) → y = some (.mat m') → m ≠ m' →
      vwallsAt g k (p, q) ++ vwallsAt g k (q, p) = [.diel (some m') (some m)] ∨
      vwallsAt g k (p, q) ++ vwallsAt g k (q, p) = [.diel (some m) (some m')]) ∧
    (∀ m, x = some (.mat m) → y = none → vwallsAt g k (p, q) ++ vwallsAt g k (q, p) = [.diel none (some m)]) ∧
    (∀ n n', x = some (.net n) → y = some (.net n') → n ≠ n' →
      vwallsAt g k (p, q) ++ vwallsAt g k (q, p) = [.cond n none, .cond n' none]) := by
  have he' : (q, p) ∈ adj := hadj _ he
  have w1 := walls_exact hadj hdbu hb hg k p q h1 h2
  have w2 := walls_exact hadj hdbu hb hg k q p h2 h1
  rw [if_pos he] at w1
  rw [if_pos he'] at w2
  rw [w1, w2]
  refine ⟨?_, ?_, ?_, ?_, ?_⟩
  · rintro rfl; simp [wallOf]
  · rintro n rfl hne hy
    rcases y with _ | (n' | m)
    · simp [wallOf, matOf]
    · cases hy
    · simp [wallOf, matOf]
  · rintro m m' rfl rfl hne
    have hne' : ¬ m' = m := fun e => hne e.symm
    have h := build_built hb
    have hm : m ∈ matNames calls := by
      have := drawn_known h h1.1
      rw [keysB, mem_keysOf_mat, h.mkeys, mem_firsts] at this; exact this
    have hij : (matNames calls).idxOf m ≠ (matNames calls).idxOf m' := fun e => hne ((List.idxOf_inj hm).1 e)
    rcases Nat.lt_or_gt_of_ne hij with hlt | hgt
    · left
      have : ¬ (matNames calls).idxOf m' < (matNames calls).idxOf m := by omega
      simp [wallOf, hne, hne', hlt, this]
    · right
      have : ¬ (matNames calls).idxOf m < (matNames calls).idxOf m' := by omega
      simp [wallOf, hne, hne', this, hgt]
  · rintro m rfl rfl; simp [wallOf]
  · rintro n n' rfl rfl hne
    have hne' : ¬ n' = n := fun e => hne e.symm
    simp [wallOf, hne, hne', matOf]

/-! ### Rounding of heights -/

/-- **C14.** A height that is `i` database units up to a millionth of a unit is taken as `i`. -/
theorem height_rounding {dbu z : ℚ} (hdbu : 0 < dbu) (i : Int) (hlo : (i - 1 / 1000000) * dbu ≤ z)
    (hhi : z < (i + 1 - 1 / 1000000) * dbu) : z2norm dbu z = i := by
  unfold z2norm
  rw [Int.floor_eq_iff]
  have h1 : (i : ℚ) - 1 / 1000000 ≤ z / dbu := by rw [le_div_iff₀ hdbu]; exact hlo
  have h2 : z / dbu < i + 1 - 1 / 1000000 := by rw [div_lt_iff₀ hdbu]; exact hhi
  constructor <;> linarith

/-- A height of 0.29 at 0.005 per unit: 58 units, also if slightly too low. -/
example : z2norm (5 / 1000) (29 / 100) = 58 ∧ z2norm (5 / 1000) (29 / 100 - 1 / 1000000000) = 58 :=
  ⟨height_rounding (by norm_num) 58 (by norm_num) (by norm_num),
   height_rounding (by norm_num) 58 (by norm_num) (by norm_num)⟩

/-! ### Concrete cases -/

/-- `Exclusive`, computed from the calls. -/
theorem exclusive_of_cover {dbu : ℚ} {calls : List (Call P)} {b : Builder P} (hb : build dbu calls = .ok b) {k : Int} {p : P}
    (h1 : ∀ n ∈ b.clayers.keys, ∀ n' ∈ b.clayers.keys, p ∈ cover b k (.net n) → p ∈ cover b k (.net n') → n = n')
    (h2 : ∀ n ∈ b.materials.keys, ∀ n' ∈ b.materials.keys, p ∈ cover b k (.mat n) → p ∈ cover b k (.mat n') → n = n') :
    Exclusive dbu calls k p := by
  have h := build_built hb
  constructor
  · intro n n' d d'
    exact h1 n (mem_keysOf_net.1 (drawn_known h d)) n' (mem_keysOf_net.1 (drawn_known h d'))
      ((drawn_iff h _ _ _).1 d) ((drawn_iff h _ _ _).1 d')
  · intro n n' d d'
    exact h2 n (mem_keysOf_mat.1 (drawn_known h d)) n' (mem_keysOf_mat.1 (drawn_known h d'))
      ((drawn_iff h _ _ _).1 d) ((drawn_iff h _ _ _).1 d')

/-- The occupant computed from the calls. -/
theorem occupant_of_occ {dbu : ℚ} {calls : List (Call P)} {b : Builder P} (hb : build dbu calls = .ok b) {k : Int} {p : P}
    {x : Option Mk} (h : occ b k p = x) : Occupant dbu calls k p x := h ▸ occ_occupant (build_built hb) k p

/-- Two neighbouring cells. -/
def exAdj : Finset (Fin 2 × Fin 2) := {(0, 1), (1, 0)}

/-- A field oxide below a nitride, a metal line in the nitride over cell 0 and a second one touching it from above. -/
def exCalls : List (Call (Fin 2)) :=
  [.material "fox" (39 / 10), .material "nild" (7 / 2), .dielectric "fox" {0, 1} 0 (1 / 10),
   .dielectric "nild" {0, 1} (1 / 10) (3 / 10), .conductor "A" {0} (2 / 10) (1 / 10), .conductor "B" {0} (3 / 10) (1 / 10)]

/-- Two dielectrics drawn over each other and a conductor in the middle. -/
def exBad : List (Call (Fin 2)) :=
  [.material "D1" 1, .material "D2" 2, .dielectric "D1" {0} 0 3, .dielectric "D2" {0} 0 3, .conductor "N" {0} 1 1]

/-- Three dielectrics, the first one ends where the others go on. -/
def exStack : List (Call (Fin 2)) :=
  [.material "D1" 1, .material "D2" 2, .material "D3" 3, .dielectric "D1" {0} 0 1, .dielectric "D2" {0} 0 2,
   .dielectric "D3" {0} 0 2]

/-- All hypotheses of the theorems above hold together on `exCalls`, with an interface of every kind. -/
example : ∃ b g, build (1 / 1000) exCalls = .ok b ∧ b.generate exAdj = some g ∧ (∀ e ∈ exAdj, e.swap ∈ exAdj) ∧
    b.heights = [0, 100] ++ 200 :: [300, 400] ∧
    Occupant (1 / 1000) exCalls 199 0 (some (.mat "nild")) ∧ Occupant (1 / 1000) exCalls 200 0 (some (.net "A")) ∧
    Occupant (1 / 1000) exCalls 299 0 (some (.net "A")) ∧ Occupant (1 / 1000) exCalls 300 0 (some (.net "B")) ∧
    Occupant (1 / 1000) exCalls 200 1 (some (.mat "nild")) ∧ Occupant (1 / 1000) exCalls 400 1 none ∧
    Exclusive (1 / 1000) exCalls 199 0 ∧ Exclusive (1 / 1000) exCalls 200 0 ∧
    hfacesAt g 200 0 = [.bottom "A" (some "nild")] ∧ hfacesAt g 100 1 = [.diel (some "fox") (some "nild")] ∧
    vwallsAt g 250 (0, 1) = [.cond "A" (some "nild")] := by
  cases hb : build (1 / 1000) exCalls with
  | error e =>
    have key : (match build (1 / 1000) exCalls with | .ok _ => true | .error _ => false) = true := by decide +kernel
    rw [hb] at key; cases key
  | ok b =>
    cases hg : b.generate exAdj with
    | none =>
      have key : (match build (1 / 1000) exCalls with
        | .ok b => (b.generate exAdj).isSome
        | .error _ => false) = true := by decide +kernel
      rw [hb] at key; simp only [hg] at key; cases key
    | some g =>
      have key : (match build (1 / 1000) exCalls with
        | .ok b => match b.generate exAdj with
          | some g => decide (b.heights = [0, 100] ++ 200 :: [300, 400] ∧ occ b 199 0 = some (.mat "nild") ∧
            occ b 200 0 = some (.net "A") ∧ occ b 299 0 = some (.net "A") ∧ occ b 300 0 = some (.net "B") ∧
            occ b 200 1 = some (.mat "nild") ∧ occ b 400 1 = none ∧ hfacesAt g 200 0 = [.bottom "A" (some "nild")] ∧
            hfacesAt g 100 1 = [.diel (some "fox") (some "nild")] ∧ vwallsAt g 250 (0, 1) = [.cond "A" (some "nild")] ∧
            ∀ k ∈ ([199, 200] : List Int),
              (∀ n ∈ b.clayers.keys, ∀ n' ∈ b.clayers.keys, (0 : Fin 2) ∈ cover b k (.net n) → (0 : Fin 2) ∈ cover b k (.net n') → n = n') ∧
              (∀ n ∈ b.materials.keys, ∀ n' ∈ b.materials.keys, 0 ∈ cover b k (.mat n) → 0 ∈ cover b k (.mat n') → n = n'))
          | none => false
        | .error _ => false) = true := by decide +kernel
      rw [hb] at key
      simp only [hg, decide_eq_true_eq] at key
      obtain ⟨k1, k2, k3, k4, k5, k6, k7, k8, k9, k10, k11⟩ := key
      have k12 := k11 199 (by simp)
      have k13 := k11 200 (by simp)
      exact ⟨b, g, rfl, hg, by decide, k1, occupant_of_occ hb k2, occupant_of_occ hb k3, occupant_of_occ hb k4,
        occupant_of_occ hb k5, occupant_of_occ hb k6, occupant_of_occ hb k7, exclusive_of_cover hb k12.1 k12.2,
        exclusive_of_cover hb k13.1 k13.2, k8, k9, k10⟩

/-- **C17 is false** without the restriction: where two dielectrics overlap and a conductor begins inside both, a surface
between the two dielectrics is emitted under the conductor, although there is no such interface. -/
theorem no_spurious_fails : ∃ (calls : List (Call (Fin 2))) (b : Builder (Fin 2)) (g : Gen (Fin 2)) (p : Fin 2) (k : Int),
    build 1 calls = .ok b ∧ b.generate exAdj = some g ∧
    Occupant 1 calls (k - 1) p (some (.mat "D1")) ∧ Occupant 1 calls k p (some (.net "N")) ∧
    Face.diel (some "D1") (some "D2") ∈ hfacesAt g k p := by
  cases hb : build 1 exBad with
  | error e =>
    have key : (match build 1 exBad with | .ok _ => true | .error _ => false) = true := by decide +kernel
    rw [hb] at key; cases key
  | ok b =>
    cases hg : b.generate exAdj with
    | none =>
      have key : (match build 1 exBad with
        | .ok b => (b.generate exAdj).isSome
        | .error _ => false) = true := by decide +kernel
      rw [hb] at key; simp only [hg] at key; cases key
    | some g =>
      have key : (match build 1 exBad with
        | .ok b => match b.generate exAdj with
          | some g => decide (occ b (1 - 1) 0 = some (.mat "D1") ∧ occ b 1 0 = some (.net "N") ∧
            Face.diel (some "D1") (some "D2") ∈ hfacesAt g 1 0)
          | none => false
        | .error _ => false) = true := by decide +kernel
      rw [hb] at key
      simp only [hg, decide_eq_true_eq] at key
      exact ⟨exBad, b, g, 0, 1, hb, hg, occupant_of_occ hb key.1, occupant_of_occ hb key.2.1, key.2.2⟩

/-- **C17 is false** also without conductors: where the first of three overlapping dielectrics ends, surfaces to both
remaining ones are emitted. -/
theorem no_spurious_fails_stack : ∃ (calls : List (Call (Fin 2))) (b : Builder (Fin 2)) (g : Gen (Fin 2)) (p : Fin 2)
    (k : Int), build 1 calls = .ok b ∧ b.generate exAdj = some g ∧
    Occupant 1 calls (k - 1) p (some (.mat "D1")) ∧ Occupant 1 calls k p (some (.mat "D2")) ∧
    Face.diel (some "D1") (some "D2") ∈ hfacesAt g k p ∧ Face.diel (some "D1") (some "D3") ∈ hfacesAt g k p := by
  cases hb : build 1 exStack with
  | error e =>
    have key : (match build 1 exStack with | .ok _ => true | .error _ => false) = true := by decide +kernel
    rw [hb] at key; cases key
  | ok b =>
    cases hg : b.generate exAdj with
    | none =>
      have key : (match build 1 exStack with
        | .ok b => (b.generate exAdj).isSome
        | .error _ => false) = true := by decide +kernel
      rw [hb] at key; simp only [hg] at key; cases key
    | some g =>
      have key : (match build 1 exStack with
        | .ok b => match b.generate exAdj with
          | some g => decide (occ b (1 - 1) 0 = some (.mat "D1") ∧ occ b 1 0 = some (.mat "D2") ∧
            Face.diel (some "D1") (some "D2") ∈ hfacesAt g 1 0 ∧ Face.diel (some "D1") (some "D3") ∈ hfacesAt g 1 0)
          | none => false
        | .error _ => false) = true := by decide +kernel
      rw [hb] at key
      simp only [hg, decide_eq_true_eq] at key
      exact ⟨exStack, b, g, 0, 1, hb, hg, occupant_of_occ hb key.1, occupant_of_occ hb key.2.1, key.2.2⟩

end Verif.Sweep
