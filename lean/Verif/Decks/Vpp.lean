import Verif.Decks.VppRules

/-!
# Which models LVS of sky130A gives to capacitors between fingers

The markers are rectangles that touch no other marker; then the edges that touch one are its own. The table of the selections is
`Vpp.rules` (sky130.lvs 1383–1639).
-/

namespace Verif.Decks.Vpp

/-- A rectangular marker: its sides, and which conditions hold. -/
structure Marker where
  w : Int
  h : Int
  holds : Cond → Bool

/-- The selection has the marker: `vpp.interacting(edges)…`, `interacting`, `covering` and their negations; sky130.lvs 1442–1639. -/
def Rule.selects (r : Rule) (m : Marker) : Bool :=
  (r.edges.all fun e => e.has m.w || e.has m.h) && r.conds.all fun c => m.holds c.1 == c.2

/-- The models of the devices of a marker; sky130.lvs 2295–2524. -/
def models (m : Marker) : List String := (rules.filter (·.selects m)).map (·.name)

/-! ### Specification -/

/-- The pairs of models that one marker can get: two of the selections that look at one side only, or two with the same layers that differ
in what met5 covers. -/
def Together : List (String × String) :=
  [("vpp_03p9x03p9_m1m2_shieldl1_floatm3", "vpp_05p9x05p9_m1m2m3m4_shieldl1_wafflecap"),
    ("vpp_03p9x03p9_m1m2_shieldl1_floatm3", "vpp_11p3x11p3_m1m2m3m4_shieldl1_wafflecap"),
    ("vpp_05p9x05p9_m1m2m3m4_shieldl1_wafflecap", "vpp_11p3x11p3_m1m2m3m4_shieldl1_wafflecap"),
    ("vpp_11p5x11p7_l1m1m2m3m4_shieldpom5", "vpp_11p5x11p7_l1m1m2m3m4_shieldpom5_x")]

/-! ### Proofs -/

/-- The common part of two ranges; `none` is the range of all lengths. -/
def meet (s : Limits) : Option Limits → Limits
  | none => s
  | some t => ⟨max s.lo t.lo, min s.hi t.hi⟩

/-- Each range can be given to one of two sides so that the ranges of each side have a common length. -/
def splits : List Limits → Option Limits → Option Limits → Bool
  | [], _, _ => true
  | s :: ss, a, b =>
    (decide ((meet s a).lo < (meet s a).hi) && splits ss (some (meet s a)) b) ||
      (decide ((meet s b).lo < (meet s b).hi) && splits ss a (some (meet s b)))

theorem meet_has {s : Limits} {a : Option Limits} {v : Int} (h : s.has v = true) (ha : ∀ t ∈ a, t.has v = true) :
    (meet s a).has v = true ∧ (meet s a).lo < (meet s a).hi := by
  cases a with
  | none =>
    rw [meet]
    refine ⟨h, ?_⟩
    rw [limits_iff] at h
    omega
  | some t =>
    have ht := ha t rfl
    rw [limits_iff] at h ht
    rw [limits_iff]
    simp only [meet]
    omega

theorem splits_sound {v w : Int} : ∀ {ss : List Limits} {a b : Option Limits}, (∀ s ∈ ss, s.has v = true ∨ s.has w = true) →
    (∀ t ∈ a, t.has v = true) → (∀ t ∈ b, t.has w = true) → splits ss a b = true
  | [], _, _, _, _, _ => rfl
  | s :: ss, a, b, h, ha, hb => by
    rw [splits, Bool.or_eq_true, Bool.and_eq_true, Bool.and_eq_true, decide_eq_true_eq, decide_eq_true_eq]
    rcases h s (.head _) with hs | hs
    · obtain ⟨h1, h2⟩ := meet_has hs ha
      exact .inl ⟨h2, splits_sound (fun t ht => h t (.tail _ ht)) (fun t ht => by cases ht; exact h1) hb⟩
    · obtain ⟨h1, h2⟩ := meet_has hs hb
      exact .inr ⟨h2, splits_sound (fun t ht => h t (.tail _ ht)) ha fun t ht => by cases ht; exact h1⟩

/-- The selections exclude each other by their conditions. -/
def opposed (r s : Rule) : Bool := r.conds.any fun c => s.conds.any fun d => decide (c.1 = d.1) && (c.2 != d.2)

theorem table_checked : rules.Pairwise fun r s =>
    opposed r s = true ∨ splits (r.edges ++ s.edges) none none = false ∨ (r.name, s.name) ∈ Together := by
  decide +kernel

/-- Two selections have no marker in common, but for the listed pairs. -/
theorem selected_pairs : rules.Pairwise fun r s => ∀ m, r.selects m = true → s.selects m = true → (r.name, s.name) ∈ Together := by
  refine table_checked.imp ?_
  intro r s h m hr hs
  simp only [Rule.selects, Bool.and_eq_true, List.all_eq_true, Bool.or_eq_true, beq_iff_eq] at hr hs
  rcases h with h | h | h
  · simp only [opposed, List.any_eq_true, Bool.and_eq_true, decide_eq_true_eq, bne_iff_ne] at h
    obtain ⟨c, hc, d, hd, h1, h2⟩ := h
    exact absurd ((hr.2 c hc).symm.trans ((congrArg m.holds h1).trans (hs.2 d hd))) h2
  · rw [splits_sound (v := m.w) (w := m.h)] at h
    · cases h
    · intro e he
      rcases List.mem_append.1 he with he | he
      · exact hr.1 e he
      · exact hs.1 e he
    · simp
    · simp
  · exact h

/-- **C147, partial.** A marker gets at most one model, unless it gets one of the listed pairs. Missing: that it gets at most one, which is
false (`vpp_twice`). -/
theorem vpp_one_model_partial (m : Marker) :
    (models m).length ≤ 1 ∨ ∃ p ∈ Together, p.1 ∈ models m ∧ p.2 ∈ models m := by
  have h := selected_pairs.filter (·.selects m)
  have hm : ∀ r ∈ rules.filter (·.selects m), r.selects m = true := fun r hr => (List.mem_filter.1 hr).2
  unfold models
  generalize rules.filter (·.selects m) = l at h hm
  rcases l with _ | ⟨r, _ | ⟨s, l⟩⟩
  · exact .inl (by simp)
  · exact .inl (by simp)
  · refine .inr ⟨(r.name, s.name), ?_, by simp, by simp⟩
    exact (List.pairwise_cons.1 h).1 s (.head _) m (hm r (.head _)) (hm s (.tail _ (.head _)))

/-- A marker that the selection is made for: sides in the middle of the ranges, and no condition that it does not ask for. -/
def made (r : Rule) : Marker :=
  ⟨(r.edges.head?.elim 0 (·.lo)) + 10, (r.edges.getLast?.elim 0 (·.lo)) + 10, fun c => r.conds.any fun d => decide (d.1 = c) && d.2⟩

/-- Each model is given to some marker, and alone. -/
theorem vpp_all_used : ∀ r ∈ rules, models (made r) = [r.name] := by decide +kernel

theorem models_mem {m : Marker} {r : Rule} (h : r ∈ rules) (hs : r.selects m = true) : r.name ∈ models m :=
  List.mem_map_of_mem (List.mem_filter.2 ⟨h, hs⟩)

/-- Violation: three of the selections look at one side only, and at no layer. A marker gets their models whatever its other side is. -/
theorem vpp_one_side (n : String) (e : Limits)
    (h : (n, e) ∈ [("vpp_03p9x03p9_m1m2_shieldl1_floatm3", (⟨1420, 1440⟩ : Limits)),
      ("vpp_05p9x05p9_m1m2m3m4_shieldl1_wafflecap", ⟨5480, 5500⟩), ("vpp_11p3x11p3_m1m2m3m4_shieldl1_wafflecap", ⟨10980, 11000⟩)])
    (m : Marker) (hm : e.lo ≤ m.w ∧ m.w < e.hi ∨ e.lo ≤ m.h ∧ m.h < e.hi) : n ∈ models m := by
  have hr : (⟨n, [e, e], []⟩ : Rule) ∈ rules := by
    simp only [List.mem_cons, Prod.mk.injEq, List.not_mem_nil, or_false] at h
    rcases h with ⟨rfl, rfl⟩ | ⟨rfl, rfl⟩ | ⟨rfl, rfl⟩ <;> simp [rules, «vpp_1_43», «vpp_5_49», «vpp_10_99»]
  refine models_mem hr ?_
  simp only [Rule.selects, List.all_cons, List.all_nil, Bool.and_true, Bool.and_self, Bool.or_eq_true]
  rw [limits_iff, limits_iff]
  exact hm

/-- Violation: a marker of 1.43 µm by 5.49 µm gets two models. -/
theorem vpp_twice (f : Cond → Bool) :
    "vpp_03p9x03p9_m1m2_shieldl1_floatm3" ∈ models ⟨1430, 5490, f⟩ ∧
      "vpp_05p9x05p9_m1m2m3m4_shieldl1_wafflecap" ∈ models ⟨1430, 5490, f⟩ :=
  ⟨vpp_one_side _ _ (.head _) _ (by simp), vpp_one_side _ _ (.tail _ (.head _)) _ (by simp)⟩

/-- The four listed pairs occur, each for some marker. A marker of another size gets no model. -/
theorem vpp_ex :
    (∀ p ∈ Together, [p.1, p.2] ∈
      [models ⟨1430, 5490, fun _ => true⟩, models ⟨10990, 1430, fun _ => true⟩, models ⟨5490, 10990, fun _ => true⟩,
        models ⟨11070, 11350, fun _ => true⟩]) ∧
      models ⟨11350, 11070, fun c => decide (c ∈ [.met3, .met4])⟩ = ["vpp_11p5x11p7_m1m4_noshield"] ∧
      models ⟨3000, 3000, fun _ => true⟩ = [] := by
  decide +kernel

end Verif.Decks.Vpp
