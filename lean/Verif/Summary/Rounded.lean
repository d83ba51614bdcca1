import Verif.Common.Rounding
import Verif.Summary.Props
import Mathlib.Data.List.Induction
import Mathlib.Algebra.Order.BigOperators.Group.List

/-!
# Summaries with rounding (C115)

The other files add exactly.  Here every `+=` of the code is followed by a rounding `fl`, and the built-in `sum` is a function
`sm` about which only an error bound is assumed (Python adds one number after the other before version 3.12 and with a
compensation from then on).
-/

namespace Verif.Summary

/-! ## The code with rounding -/

/-- `for k, v in items: table[k.normed()] += v`, extraction_results.py 147–150. -/
def addNormedR (fl : ℚ → ℚ) (table : Dict NetCoupleKey ℚ) (items : Dict NetCoupleKey ℚ) : Dict NetCoupleKey ℚ :=
  items.foldl (fun d kv => d.upd kv.1.normed 0 (fun s => fl (s + kv.2))) table

/-- `ExtractionSummary.merged`, extraction_results.py 142–152. -/
def mergedR (fl : ℚ → ℚ) (summaries : List ExtractionSummary) : ExtractionSummary :=
  { capacitances := summaries.foldl (fun d s => addNormedR fl d s.capacitances) []
    resistances := summaries.foldl (fun d s => addNormedR fl d s.resistances) [] }

/-- The table loop of `summarize`, extraction_results.py 175–178, 182–185 and 189–192. -/
def summarizeTableR {κ ε : Type} (fl : ℚ → ℚ) (sm : List ℚ → ℚ) (couple : κ → NetCoupleKey) (value : ε → ℚ)
    (table : Dict κ (List ε)) : Dict NetCoupleKey ℚ :=
  table.foldl (fun d kv => d.upd (couple kv.1).normed 0 (fun s => fl (s + sm (kv.2.map value)))) []

/-- One iteration of the element loop, extraction_results.py 200–205. -/
def addElementR (fl : ℚ → ℚ) (nodeById : Dict Nat RNode) (d : Dict NetCoupleKey ℚ) (e : RElement) :
    Except String (Dict NetCoupleKey ℚ) :=
  match nodeById.get? e.nodeA with
  | none => .error "KeyError"
  | some a =>
    match nodeById.get? e.nodeB with
    | none => .error "KeyError"
    | some b => .ok (d.upd (NetCoupleKey.mk a.netName b.netName).normed 0 (fun s => fl (s + e.resistance)))

/-- The network loop, extraction_results.py 198–205. -/
def summarizeNetworksR (fl : ℚ → ℚ) (nets : List RNetwork) : Except String (Dict NetCoupleKey ℚ) :=
  nets.foldlM (fun d n =>
    n.elements.foldlM (addElementR fl (Dict.ofList (n.nodes.map fun x => (x.nodeId, x)))) d) []

/-- `CellExtractionResults.summarize`, extraction_results.py 174–213. -/
def CellResults.summarizeR (fl : ℚ → ℚ) (sm : List ℚ → ℚ) (r : CellResults) : Except String ExtractionSummary := do
  let overlap := summarizeTableR fl sm (fun k => ⟨k.netBot, k.netTop⟩) OverlapCap.capValue r.overlapTable
  let sidewall := summarizeTableR fl sm (fun k => ⟨k.net1, k.net2⟩) SidewallCap.capValue r.sidewallTable
  let sideoverlap :=
    summarizeTableR fl sm (fun k => ⟨k.netInside, k.netOutside⟩) SideOverlapCap.capValue r.sideoverlapTable
  let res ← summarizeNetworksR fl r.networks
  return mergedR fl [⟨overlap, []⟩, ⟨sidewall, []⟩, ⟨sideoverlap, []⟩, ⟨[], res⟩]

/-- `ExtractionResults.summarize`, extraction_results.py 216–222. -/
def summarizeAllR (fl : ℚ → ℚ) (sm : List ℚ → ℚ) (cells : Dict String CellResults) : Except String ExtractionSummary := do
  let subs ← cells.values.mapM (CellResults.summarizeR fl sm)
  return mergedR fl subs

/-! ## Specification -/

/-- `sm` adds non-negative numbers with at most one rounding for each of them. -/
def Sums (sm : List ℚ → ℚ) (u : ℚ) : Prop := ∀ l : List ℚ, (∀ x ∈ l, 0 ≤ x) → Near u l.length (sm l) l.sum

/-- How many capacitances were recorded between `a` and `b`. -/
def records (a b : String) (hs : List (String × List Op)) : Nat :=
  (hs.map fun nh => (nh.2.filter fun op => op.Couples a b).length).sum

/-! ## Numbers -/

variable {fl : ℚ → ℚ} {sm : List ℚ → ℚ} {u : ℚ}

theorem near_mono (h0 : 0 ≤ u) (h1 : u < 1) {n m : Nat} (hnm : n ≤ m) {x y : ℚ} (hy : 0 ≤ y) (h : Near u n x y) :
    Near u m x y := by
  refine ⟨le_trans ?_ h.1, h.2.trans ?_⟩
  · exact mul_le_mul_of_nonneg_right (pow_le_pow_of_le_one (by linarith) (by linarith) hnm) hy
  · exact mul_le_mul_of_nonneg_right (pow_le_pow_right₀ (by linarith) hnm) hy

theorem near_zero (u : ℚ) (n : Nat) : Near u n 0 0 := by simp [Near]

theorem near_add {n : Nat} {x y x' y' : ℚ} (h : Near u n x y) (h' : Near u n x' y') : Near u n (x + x') (y + y') := by
  unfold Near at *
  constructor <;> nlinarith [h.1, h.2, h'.1, h'.2]

theorem near_fl (hr : Rounds fl u) {n : Nat} {x y : ℚ} (hy : 0 ≤ y) (h : Near u n x y) : Near u (n + 1) (fl x) y := by
  have h0 := hr.1
  have h1 := hr.2.1
  have hx : 0 ≤ x := (mul_nonneg (pow_nonneg (by linarith) n) hy).trans h.1
  have ha := hr.le hx
  have hb := hr.ge hx
  constructor
  · refine le_trans ?_ hb
    rw [pow_succ, mul_comm ((1 - u) ^ n), mul_assoc]
    exact mul_le_mul_of_nonneg_left h.1 (by linarith)
  · refine ha.trans ?_
    rw [pow_succ, mul_comm ((1 + u) ^ n), mul_assoc]
    exact mul_le_mul_of_nonneg_left h.2 (by linarith)

/-- Adding one number after the other, as `sum` before Python 3.12. -/
theorem sums_loop (hr : Rounds fl u) : Sums (fun l => l.foldl (fun s x => fl (s + x)) 0) u := by
  intro l
  induction l using List.reverseRecOn with
  | nil => intro _; simpa using near_zero u 0
  | append_singleton l x ih =>
    intro h
    have hx := h x (by simp)
    have hl : ∀ y ∈ l, 0 ≤ y := fun y hy => h y (by simp [hy])
    have hs : 0 ≤ l.sum := List.sum_nonneg hl
    simp only [List.foldl_append, List.foldl_cons, List.foldl_nil, List.length_append, List.length_singleton,
      List.sum_append, List.sum_singleton]
    refine near_fl hr (add_nonneg hs hx) (near_add (ih hl) ?_)
    exact near_mono hr.1 hr.2.1 (Nat.zero_le _) hx (by simp [Near])

/-- Adding exactly and rounding once. -/
theorem sums_once (hr : Rounds fl u) : Sums (fun l => fl l.sum) u := by
  intro l h
  have hs : 0 ≤ l.sum := List.sum_nonneg h
  cases l with
  | nil =>
    have := hr.2.2 0
    simp at this
    simpa [this] using near_zero u 0
  | cons x l =>
    have h1 : Near u 1 (fl (x :: l).sum) (x :: l).sum := near_fl (n := 0) hr hs (by simp [Near])
    exact near_mono hr.1 hr.2.1 (by simp) hs h1

/-! ## Tables -/

/-- Two tables have the same keys in the same order, and close values; `N` says how close. -/
def TNear (u : ℚ) (N : NetCoupleKey → Nat) (d' d : Dict NetCoupleKey ℚ) : Prop :=
  List.Forall₂ (fun p' p => p'.1 = p.1 ∧ 0 ≤ p.2 ∧ Near u (N p.1) p'.2 p.2) d' d

theorem TNear.keys {N : NetCoupleKey → Nat} {d' d : Dict NetCoupleKey ℚ} (h : TNear u N d' d) : Dict.keys d' = Dict.keys d := by
  induction h with
  | nil => rfl
  | cons hp _ ih => simp only [Dict.keys_cons, ih, hp.1]

theorem TNear.mono (h0 : 0 ≤ u) (h1 : u < 1) {N M : NetCoupleKey → Nat} {d' d : Dict NetCoupleKey ℚ} (h : TNear u N d' d)
    (hNM : ∀ k ∈ Dict.keys d, N k ≤ M k) : TNear u M d' d := by
  induction h with
  | nil => exact .nil
  | cons hp _ ih =>
    refine .cons ⟨hp.1, hp.2.1, near_mono h0 h1 (hNM _ (by simp)) hp.2.1 hp.2.2⟩ (ih fun k hk => hNM k ?_)
    simp [hk]

/-- A rounded addition to one key. -/
theorem TNear.upd (hr : Rounds fl u) {N M : NetCoupleKey → Nat} {d' d : Dict NetCoupleKey ℚ} (h : TNear u N d' d)
    {k : NetCoupleKey} {v' v : ℚ} {m : Nat} (hv : 0 ≤ v) (hm : Near u m v' v) (hM : ∀ k' ≠ k, N k' ≤ M k')
    (hMk : N k + 1 ≤ M k) (hMm : m + 1 ≤ M k) :
    TNear u M (Dict.upd d' k 0 (fun s => fl (s + v'))) (Dict.upd d k 0 (· + v)) := by
  have h0 := hr.1
  have h1 := hr.2.1
  unfold Dict.upd
  have key : ∀ (x' x : ℚ) (n : Nat), 0 ≤ x → Near u n x' x → n + 1 ≤ M k → Near u (M k) (fl (x' + v')) (x + v) := by
    intro x' x n hx hn hnM
    obtain ⟨q, hq⟩ : ∃ q, M k = q + 1 := ⟨M k - 1, by omega⟩
    rw [hq]
    exact near_fl hr (add_nonneg hx hv)
      (near_add (near_mono h0 h1 (by omega) hx hn) (near_mono h0 h1 (by omega) hv hm))
  induction h with
  | nil =>
    simp only [Dict.getD, Dict.get?, Dict.set, Option.getD_none]
    exact .cons ⟨rfl, by linarith, key 0 0 0 le_rfl (near_zero u 0) (by omega)⟩ .nil
  | @cons p' p l' l hp hl ih =>
    obtain ⟨k₁, x'⟩ := p'
    obtain ⟨k₀, x⟩ := p
    obtain ⟨rfl, hx, hn⟩ := hp
    simp only at hx hn
    by_cases hk : k₁ = k
    · subst hk
      simp only [Dict.getD, Dict.get?, Dict.set, if_true, Option.getD_some]
      refine .cons ⟨rfl, by linarith, key x' x _ hx hn hMk⟩ ?_
      refine TNear.mono h0 h1 hl fun k' _ => ?_
      by_cases h : k' = k₁
      · subst h; omega
      · exact hM k' h
    · simp only [Dict.getD, Dict.get?, Dict.set, if_neg hk]
      exact .cons ⟨rfl, hx, near_mono h0 h1 (hM _ hk) hx hn⟩ ih


/-- `addNormedR` against `addNormed`: every key is met once. -/
theorem addNormedR_near (hr : Rounds fl u) {e' e : Dict NetCoupleKey ℚ} {Ne A : NetCoupleKey → Nat} (he : TNear u Ne e' e)
    (hn : (Dict.keys e).Nodup) (hk : ∀ k ∈ Dict.keys e, k.normed = k) (hA : ∀ k, Ne k ≤ A k) {N : NetCoupleKey → Nat}
    {d' d : Dict NetCoupleKey ℚ} (hd : TNear u N d' d) (hN : ∀ k, N k ≤ A k + 1) (hNe : ∀ k ∈ Dict.keys e, N k ≤ A k) :
    TNear u (fun k => A k + 1) (addNormedR fl d' e') (addNormed d e) := by
  unfold addNormedR addNormed
  induction he generalizing d' d N with
  | nil => exact hd.mono hr.1 hr.2.1 fun k _ => hN k
  | @cons p' p l' l hp hl ih =>
    simp only [Dict.keys_cons, List.nodup_cons] at hn
    simp only [List.foldl_cons]
    have hpk : p.1.normed = p.1 := hk _ (by simp)
    rw [hp.1, hpk]
    refine ih hn.2 (fun k h => hk k (by simp [h])) (N := fun k => if k = p.1 then A k + 1 else N k)
      (hd.upd hr hp.2.1 hp.2.2 ?_ ?_ ?_) ?_ ?_
    · intro k' hk'; simp [hk']
    · simpa using hNe p.1 (by simp)
    · simpa using hA p.1
    · intro k; split
      · exact le_rfl
      · exact hN k
    · intro k hkl
      have : k ≠ p.1 := fun h => hn.1 (h ▸ hkl)
      rw [if_neg this]
      exact hNe k (by simp [hkl])

/-- Merging of summaries. -/
theorem merge_near (hr : Rounds fl u) {A : NetCoupleKey → Nat} {l' l : List (Dict NetCoupleKey ℚ)}
    (h : List.Forall₂ (fun e' e => TNear u A e' e ∧ (Dict.keys e).Nodup ∧ ∀ k ∈ Dict.keys e, k.normed = k) l' l) {j : Nat}
    {d' d : Dict NetCoupleKey ℚ} (hd : TNear u (fun k => A k + j) d' d) :
    TNear u (fun k => A k + (j + l.length)) (l'.foldl (addNormedR fl) d') (l.foldl addNormed d) := by
  induction h generalizing d' d j with
  | nil => exact hd
  | cons hp _ ih =>
    have := ih (j := j + 1) (addNormedR_near hr hp.1 hp.2.1 hp.2.2 (A := fun k => A k + j) (fun k => by omega) hd
      (fun k => by omega) (fun k _ => le_rfl))
    simp only [List.foldl_cons, List.length_cons]
    refine this.mono hr.1 hr.2.1 fun k _ => by omega

/-! ### The tables of a cell -/

/-- How many records of a table belong to a pair. -/
def tcount {κ ε : Type} (k : NetCoupleKey) (couple : κ → NetCoupleKey) (table : Dict κ (List ε)) : Nat :=
  (table.map fun kv => if (couple kv.1).normed = k then kv.2.length else 0).sum

/-- No key without records, no negative values. -/
def Filled {κ ε : Type} (value : ε → ℚ) (table : Dict κ (List ε)) : Prop :=
  ∀ kv ∈ table, kv.2 ≠ [] ∧ ∀ c ∈ kv.2, 0 ≤ value c

theorem tcount_upd {κ ε : Type} [DecidableEq κ] (k : NetCoupleKey) (couple : κ → NetCoupleKey) (table : Dict κ (List ε))
    (q : κ) (c : ε) :
    tcount k couple (table.upd q [] (· ++ [c])) = tcount k couple table + if (couple q).normed = k then 1 else 0 := by
  unfold tcount Dict.upd Dict.getD
  induction table with
  | nil => simp [Dict.set]
  | cons p d ih =>
    obtain ⟨k₀, v₀⟩ := p
    by_cases hk : k₀ = q
    · subst hk
      simp only [Dict.set, Dict.get?, if_true, Option.getD_some, List.map_cons, List.sum_cons, List.length_append,
        List.length_singleton]
      split <;> omega
    · simp only [Dict.set, Dict.get?, hk, if_false, List.map_cons, List.sum_cons, ih]
      omega

theorem filled_upd {κ ε : Type} [DecidableEq κ] {value : ε → ℚ} {table : Dict κ (List ε)} (h : Filled value table) (q : κ)
    {c : ε} (hc : 0 ≤ value c) : Filled value (table.upd q [] (· ++ [c])) := by
  unfold Dict.upd Dict.getD
  induction table with
  | nil =>
    intro kv hkv
    simp only [Dict.set, Dict.get?, Option.getD_none, List.nil_append, List.mem_singleton] at hkv
    subst hkv
    simpa using hc
  | cons p d ih =>
    obtain ⟨k₀, v₀⟩ := p
    have hd : Filled value d := fun kv hkv => h kv (List.mem_cons_of_mem _ hkv)
    have hp := h (k₀, v₀) (by simp)
    by_cases hk : k₀ = q
    · subst hk
      simp only [Dict.set, Dict.get?, if_true, Option.getD_some]
      intro kv hkv
      rcases List.mem_cons.1 hkv with rfl | hkv
      · refine ⟨by simp, fun c' hc' => ?_⟩
        rcases List.mem_append.1 hc' with h' | h'
        · exact hp.2 c' h'
        · rw [List.mem_singleton.1 h']; exact hc
      · exact hd kv hkv
    · simp only [Dict.set, Dict.get?, hk, if_false]
      intro kv hkv
      rcases List.mem_cons.1 hkv with rfl | hkv
      · exact hp
      · exact ih hd kv hkv

theorem summarizeTableR_near (hr : Rounds fl u) (hsm : Sums sm u) {κ ε : Type} (couple : κ → NetCoupleKey) (value : ε → ℚ)
    (table : Dict κ (List ε)) (hf : Filled value table) :
    TNear u (fun k => tcount k couple table + 1) (summarizeTableR fl sm couple value table)
      (summarizeTable couple value table) := by
  unfold summarizeTableR summarizeTable
  suffices ∀ (S : NetCoupleKey → Nat) (d' d : Dict NetCoupleKey ℚ), TNear u (fun k => S k + 1) d' d →
      TNear u (fun k => S k + tcount k couple table + 1)
        (table.foldl (fun d kv => d.upd (couple kv.1).normed 0 (fun s => fl (s + sm (kv.2.map value)))) d')
        (table.foldl (fun d kv => d.upd (couple kv.1).normed 0 (· + (kv.2.map value).sum)) d) by
    simpa using this (fun _ => 0) [] [] .nil
  induction table with
  | nil => intro S d' d h; simpa [tcount] using h
  | cons p t ih =>
    intro S d' d h
    have hp := hf p (by simp)
    have hv : ∀ x ∈ p.2.map value, 0 ≤ x := by
      intro x hx
      obtain ⟨c, hc, rfl⟩ := List.mem_map.1 hx
      exact hp.2 c hc
    have hlen : 1 ≤ p.2.length := List.length_pos_iff.2 hp.1
    have hS := hsm (p.2.map value) hv
    rw [List.length_map] at hS
    simp only [List.foldl_cons]
    have := ih (fun kv hkv => hf kv (List.mem_cons_of_mem _ hkv))
      (fun k => S k + if (couple p.1).normed = k then p.2.length else 0) _ _
      (h.upd hr (List.sum_nonneg hv) hS (k := (couple p.1).normed)
        (M := fun k => (S k + if (couple p.1).normed = k then p.2.length else 0) + 1) ?_ ?_ ?_)
    · refine this.mono hr.1 hr.2.1 fun k _ => ?_
      simp only [tcount, List.map_cons, List.sum_cons]
      omega
    · intro k' hk'; omega
    · simp only [if_true]; omega
    · simp only [if_true]; omega

/-! ### Histories -/

/-- How many records of a cell belong to a pair. -/
def ccount (k : NetCoupleKey) (r : CellResults) : Nat :=
  tcount k (fun k => ⟨k.netBot, k.netTop⟩) r.overlapTable + tcount k (fun k => ⟨k.net1, k.net2⟩) r.sidewallTable +
    tcount k (fun k => ⟨k.netInside, k.netOutside⟩) r.sideoverlapTable

theorem ccount_apply (a b : String) (r : CellResults) (op : Op) :
    ccount (NetCoupleKey.normed ⟨a, b⟩) (r.apply op) =
      ccount (NetCoupleKey.normed ⟨a, b⟩) r + if op.Couples a b then 1 else 0 := by
  cases op with
  | overlap c =>
    have e : NetCoupleKey.normed ⟨c.key.netBot, c.key.netTop⟩ = NetCoupleKey.normed ⟨a, b⟩ ↔ (Op.overlap c).Couples a b := by
      rw [← samePair_iff_normed]; exact samePair_swap
    simp only [CellResults.apply, CellResults.addOverlapCap, ccount, tcount_upd, e]
    omega
  | sidewall c =>
    have e : NetCoupleKey.normed ⟨c.key.net1, c.key.net2⟩ = NetCoupleKey.normed ⟨a, b⟩ ↔ (Op.sidewall c).Couples a b := by
      rw [← samePair_iff_normed]; rfl
    simp only [CellResults.apply, CellResults.addSidewallCap, ccount, tcount_upd, e]
    omega
  | sideoverlap c =>
    have e : NetCoupleKey.normed ⟨c.key.netInside, c.key.netOutside⟩ = NetCoupleKey.normed ⟨a, b⟩ ↔
        (Op.sideoverlap c).Couples a b := by
      rw [← samePair_iff_normed]; rfl
    simp only [CellResults.apply, CellResults.addSideoverlapCap, ccount, tcount_upd, e]
    omega
  | network n => rfl

theorem ccount_run (a b cell : String) (h : List Op) :
    ccount (NetCoupleKey.normed ⟨a, b⟩) (runCell cell h) = (h.filter fun op => op.Couples a b).length := by
  suffices ∀ r, ccount (NetCoupleKey.normed ⟨a, b⟩) (h.foldl CellResults.apply r) =
      ccount (NetCoupleKey.normed ⟨a, b⟩) r + (h.filter fun op => op.Couples a b).length by
    simpa [runCell, ccount, tcount] using this { cellName := cell }
  induction h with
  | nil => intro r; simp
  | cons op h ih =>
    intro r
    rw [List.foldl_cons, ih, ccount_apply, List.filter_cons]
    by_cases hc : op.Couples a b
    · simp [hc]; omega
    · simp [hc]

/-- The three tables of a cell are filled. -/
def CFilled (r : CellResults) : Prop :=
  Filled OverlapCap.capValue r.overlapTable ∧ Filled SidewallCap.capValue r.sidewallTable ∧
    Filled SideOverlapCap.capValue r.sideoverlapTable

theorem cfilled_run (cell : String) (h : List Op) (hp : ∀ op ∈ h, 0 ≤ op.cap) : CFilled (runCell cell h) := by
  suffices ∀ r, CFilled r → CFilled (h.foldl CellResults.apply r) from this _ ⟨nofun, nofun, nofun⟩
  induction h with
  | nil => intro r hr; exact hr
  | cons op h ih =>
    intro r hr
    refine ih (fun op' ho => hp op' (List.mem_cons_of_mem _ ho)) _ ?_
    have h0 := hp op (by simp)
    cases op with
    | overlap c => exact ⟨filled_upd hr.1 c.key h0, hr.2⟩
    | sidewall c => exact ⟨hr.1, filled_upd hr.2.1 c.key h0, hr.2.2⟩
    | sideoverlap c => exact ⟨hr.1, hr.2.1, filled_upd hr.2.2 c.key h0⟩
    | network n => exact hr

/-! ### Success -/

theorem foldlM_ok_iff {α D : Type} (f f' : D → α → Except String D)
    (h : ∀ d d' x, (∃ r, f d x = .ok r) ↔ ∃ r, f' d' x = .ok r) (l : List α) (d d' : D) :
    (∃ r, l.foldlM f d = .ok r) ↔ ∃ r, l.foldlM f' d' = .ok r := by
  induction l generalizing d d' with
  | nil => exact ⟨fun _ => ⟨_, rfl⟩, fun _ => ⟨_, rfl⟩⟩
  | cons x l ih =>
    simp only [List.foldlM_cons, Exc.bind_ok]
    constructor
    · rintro ⟨r, d1, h1, h2⟩
      obtain ⟨d1', h1'⟩ := (h d d' x).1 ⟨_, h1⟩
      obtain ⟨r', h2'⟩ := (ih d1 d1').1 ⟨_, h2⟩
      exact ⟨r', d1', h1', h2'⟩
    · rintro ⟨r, d1, h1, h2⟩
      obtain ⟨d1', h1'⟩ := (h d d' x).2 ⟨_, h1⟩
      obtain ⟨r', h2'⟩ := (ih d1' d1).2 ⟨_, h2⟩
      exact ⟨r', d1', h1', h2'⟩

theorem networks_ok_iff (fl : ℚ → ℚ) (nets : List RNetwork) :
    (∃ r, summarizeNetworksR fl nets = .ok r) ↔ ∃ r, summarizeNetworks nets = .ok r := by
  unfold summarizeNetworksR summarizeNetworks
  apply foldlM_ok_iff
  intro d d' n
  apply foldlM_ok_iff
  intro d d' e
  unfold addElementR addElement
  cases Dict.get? (Dict.ofList (n.nodes.map fun x => (x.nodeId, x))) e.nodeA with
  | none => exact ⟨fun ⟨_, h⟩ => (by cases h), fun ⟨_, h⟩ => (by cases h)⟩
  | some a =>
    cases Dict.get? (Dict.ofList (n.nodes.map fun x => (x.nodeId, x))) e.nodeB with
    | none => exact ⟨fun ⟨_, h⟩ => (by cases h), fun ⟨_, h⟩ => (by cases h)⟩
    | some b => exact ⟨fun _ => ⟨_, rfl⟩, fun _ => ⟨_, rfl⟩⟩

theorem summarizeR_ok {r : CellResults} {s : ExtractionSummary} (h : r.summarizeR fl sm = .ok s) :
    ∃ res, summarizeNetworksR fl r.networks = .ok res ∧ s = mergedR fl
      [⟨summarizeTableR fl sm (fun k => ⟨k.netBot, k.netTop⟩) OverlapCap.capValue r.overlapTable, []⟩,
       ⟨summarizeTableR fl sm (fun k => ⟨k.net1, k.net2⟩) SidewallCap.capValue r.sidewallTable, []⟩,
       ⟨summarizeTableR fl sm (fun k => ⟨k.netInside, k.netOutside⟩) SideOverlapCap.capValue r.sideoverlapTable, []⟩,
       ⟨[], res⟩] := by
  unfold CellResults.summarizeR at h
  cases hr : summarizeNetworksR fl r.networks with
  | error e => rw [hr] at h; cases h
  | ok res => rw [hr] at h; cases h; exact ⟨res, rfl, rfl⟩

theorem cell_ok_iff (fl : ℚ → ℚ) (sm : List ℚ → ℚ) (r : CellResults) :
    (∃ s, r.summarizeR fl sm = .ok s) ↔ ∃ s, r.summarize = .ok s := by
  constructor
  · rintro ⟨s, h⟩
    obtain ⟨res, h, -⟩ := summarizeR_ok h
    obtain ⟨res', h'⟩ := (networks_ok_iff fl r.networks).1 ⟨_, h⟩
    unfold CellResults.summarize
    rw [h']
    exact ⟨_, rfl⟩
  · rintro ⟨s, h⟩
    obtain ⟨res, h, -⟩ := summarize_ok h
    obtain ⟨res', h'⟩ := (networks_ok_iff fl r.networks).2 ⟨_, h⟩
    unfold CellResults.summarizeR
    rw [h']
    exact ⟨_, rfl⟩

theorem mapM_ok_iff_all {α β : Type} (f : α → Except String β) (l : List α) :
    (∃ r, l.mapM f = .ok r) ↔ ∀ x ∈ l, ∃ y, f x = .ok y := by
  simp only [Exc.mapM_ok]
  induction l with
  | nil => exact ⟨fun _ => nofun, fun _ => ⟨[], .nil⟩⟩
  | cons x l ih =>
    constructor
    · rintro ⟨r, h⟩
      cases h with
      | cons hx hl =>
        intro y hy
        rcases List.mem_cons.1 hy with rfl | hy
        · exact ⟨_, hx⟩
        · exact ih.1 ⟨_, hl⟩ y hy
    · intro h
      obtain ⟨y, hy⟩ := h x (by simp)
      obtain ⟨r, hr⟩ := ih.2 fun z hz => h z (List.mem_cons_of_mem _ hz)
      exact ⟨y :: r, .cons hy hr⟩

/-! ### Cells -/

theorem nodup_summarizeTable {κ ε : Type} (couple : κ → NetCoupleKey) (value : ε → ℚ) (table : Dict κ (List ε)) :
    (Dict.keys (summarizeTable couple value table)).Nodup :=
  nodup_foldl (fun kv : κ × List ε => (couple kv.1).normed) (fun kv => (kv.2.map value).sum) table [] (by simp)

theorem normed_summarizeTable {κ ε : Type} (couple : κ → NetCoupleKey) (value : ε → ℚ) (table : Dict κ (List ε)) :
    ∀ k ∈ Dict.keys (summarizeTable couple value table), k.normed = k := by
  intro k hk
  obtain ⟨k', -, rfl⟩ := (keys_summarizeTable couple value table k).1 hk
  exact normed_normed _

theorem nodup_merged (l : List ExtractionSummary) : (Dict.keys (ExtractionSummary.merged l).capacitances).Nodup :=
  nodup_foldl_addNormed (fun s : ExtractionSummary => s.capacitances) l [] (by simp)

theorem normed_merged (l : List ExtractionSummary) :
    ∀ k ∈ Dict.keys (ExtractionSummary.merged l).capacitances, k.normed = k := by
  intro k hk
  have := (keys_foldl_addNormed (fun s : ExtractionSummary => s.capacitances) l [] k).1 hk
  simp only [Dict.keys_nil, List.not_mem_nil, false_or] at this
  obtain ⟨s, -, k', -, rfl⟩ := this
  exact normed_normed _

theorem merged_near (hr : Rounds fl u) {A : NetCoupleKey → Nat} {l' l : List ExtractionSummary}
    (h : List.Forall₂ (fun e' e => TNear u A e'.capacitances e.capacitances ∧ (Dict.keys e.capacitances).Nodup ∧
      ∀ k ∈ Dict.keys e.capacitances, k.normed = k) l' l) :
    TNear u (fun k => A k + l.length) (mergedR fl l').capacitances (ExtractionSummary.merged l).capacitances := by
  have h1 : List.Forall₂ (fun e' e => TNear u A e' e ∧ (Dict.keys e).Nodup ∧ ∀ k ∈ Dict.keys e, k.normed = k)
      (l'.map ExtractionSummary.capacitances) (l.map ExtractionSummary.capacitances) := by
    rw [List.forall₂_map_left_iff, List.forall₂_map_right_iff]
    exact h
  have := merge_near (fl := fl) hr h1 (j := 0) (d' := []) (d := []) .nil
  rw [List.foldl_map, List.foldl_map, List.length_map, Nat.zero_add] at this
  exact this

theorem merged_four (hr : Rounds fl u) {A : NetCoupleKey → Nat} {a₁' a₁ a₂' a₂ a₃' a₃ : Dict NetCoupleKey ℚ}
    (res' res : Dict NetCoupleKey ℚ)
    (h₁ : TNear u A a₁' a₁) (n₁ : (Dict.keys a₁).Nodup) (k₁ : ∀ k ∈ Dict.keys a₁, k.normed = k)
    (h₂ : TNear u A a₂' a₂) (n₂ : (Dict.keys a₂).Nodup) (k₂ : ∀ k ∈ Dict.keys a₂, k.normed = k)
    (h₃ : TNear u A a₃' a₃) (n₃ : (Dict.keys a₃).Nodup) (k₃ : ∀ k ∈ Dict.keys a₃, k.normed = k) :
    TNear u (fun k => A k + 4) (mergedR fl [⟨a₁', []⟩, ⟨a₂', []⟩, ⟨a₃', []⟩, ⟨[], res'⟩]).capacitances
      (ExtractionSummary.merged [⟨a₁, []⟩, ⟨a₂, []⟩, ⟨a₃, []⟩, ⟨[], res⟩]).capacitances := by
  refine merged_near (A := A) hr (l := [⟨a₁, []⟩, ⟨a₂, []⟩, ⟨a₃, []⟩, ⟨[], res⟩]) ?_
  refine .cons ⟨h₁, n₁, k₁⟩ (.cons ⟨h₂, n₂, k₂⟩ (.cons ⟨h₃, n₃, k₃⟩ (.cons ⟨?_, ?_, ?_⟩ .nil)))
  · exact .nil
  · exact List.nodup_nil
  · intro k hk; cases hk

theorem cell_near (hr : Rounds fl u) (hsm : Sums sm u) {r : CellResults} (hf : CFilled r) {s' s : ExtractionSummary}
    (h' : r.summarizeR fl sm = .ok s') (h : r.summarize = .ok s) :
    TNear u (fun k => ccount k r + 5) s'.capacitances s.capacitances ∧ (Dict.keys s.capacitances).Nodup ∧
      ∀ k ∈ Dict.keys s.capacitances, k.normed = k := by
  obtain ⟨res', -, rfl⟩ := summarizeR_ok h'
  obtain ⟨res, -, rfl⟩ := summarize_ok h
  refine ⟨?_, nodup_merged _, normed_merged _⟩
  have h0 := hr.1
  have h1 := hr.2.1
  have t1 := (summarizeTableR_near (fl := fl) hr hsm (fun k : OverlapKey => ⟨k.netBot, k.netTop⟩) OverlapCap.capValue
    r.overlapTable hf.1).mono h0 h1 (M := fun k => ccount k r + 1) fun k _ => by simp only [ccount]; omega
  have t2 := (summarizeTableR_near (fl := fl) hr hsm (fun k : SidewallKey => ⟨k.net1, k.net2⟩) SidewallCap.capValue
    r.sidewallTable hf.2.1).mono h0 h1 (M := fun k => ccount k r + 1) fun k _ => by simp only [ccount]; omega
  have t3 := (summarizeTableR_near (fl := fl) hr hsm (fun k : SideOverlapKey => ⟨k.netInside, k.netOutside⟩)
    SideOverlapCap.capValue r.sideoverlapTable hf.2.2).mono h0 h1 (M := fun k => ccount k r + 1)
    fun k _ => by simp only [ccount]; omega
  exact (merged_four hr res' res t1 (nodup_summarizeTable _ _ _) (normed_summarizeTable _ _ _)
    t2 (nodup_summarizeTable _ _ _) (normed_summarizeTable _ _ _)
    t3 (nodup_summarizeTable _ _ _) (normed_summarizeTable _ _ _)).mono h0 h1 fun k _ => by omega

theorem reported_near {N : NetCoupleKey → Nat} {d' d : Dict NetCoupleKey ℚ} (h0 : 0 ≤ u) (h1 : u < 1) (h : TNear u N d' d)
    (a b : String) (n : Nat) (hn : ∀ k ∈ Dict.keys d, SamePair k.net1 k.net2 a b → N k ≤ n) :
    Near u n (reported d' a b) (reported d a b) := by
  unfold reported
  induction h with
  | nil => exact near_zero u n
  | @cons p' p l' l hp hl ih =>
    have ih := ih fun k hk => hn k (by simp [hk])
    by_cases hs : SamePair p.1.net1 p.1.net2 a b
    · have hs' : SamePair p'.1.net1 p'.1.net2 a b := by rw [hp.1]; exact hs
      simp only [List.filter_cons, hs, hs', decide_true, if_true, List.map_cons, List.sum_cons]
      exact near_add (near_mono h0 h1 (hn _ (by simp) hs) hp.2.1 hp.2.2) ih
    · have hs' : ¬ SamePair p'.1.net1 p'.1.net2 a b := by rw [hp.1]; exact hs
      simpa only [List.filter_cons, hs, hs', decide_false, Bool.false_eq_true, if_false] using ih

theorem lists_of_keys {d' d : Dict NetCoupleKey ℚ} (h : Dict.keys d' = Dict.keys d) (a b : String) :
    Lists d' a b ↔ Lists d a b := by
  have aux : ∀ t : Dict NetCoupleKey ℚ, Lists t a b ↔ ∃ k ∈ Dict.keys t, SamePair k.net1 k.net2 a b := by
    intro t
    constructor
    · rintro ⟨kv, hm, hs⟩; exact ⟨kv.1, (Dict.mem_keys _ _).2 ⟨kv.2, hm⟩, hs⟩
    · rintro ⟨k, hk, hs⟩
      obtain ⟨v, hv⟩ := (Dict.mem_keys _ _).1 hk
      exact ⟨(k, v), hv, hs⟩
  rw [aux, aux, h]

/-! ## The theorems -/

theorem all_near (hr : Rounds fl u) (hsm : Sums sm u) (hs : List (String × List Op)) (hd : (hs.map Prod.fst).Nodup)
    (hp : ∀ nh ∈ hs, ∀ op ∈ nh.2, 0 ≤ op.cap) {s' s : ExtractionSummary}
    (h' : summarizeAllR fl sm (runCells hs) = .ok s') (h : summarizeAll (runCells hs) = .ok s) (a b : String) :
    Near u (records a b hs + hs.length + 5) (reported s'.capacitances a b) (reported s.capacitances a b) ∧
      Dict.keys s'.capacitances = Dict.keys s.capacitances := by
  obtain ⟨subs, hsubs, rfl⟩ := merged_of_summarizeAll h
  unfold summarizeAllR at h'
  rw [Exc.bind_ok] at h'
  obtain ⟨subs', hsubs', h'⟩ := h'
  cases h'
  rw [runCells_eq hs hd] at hsubs hsubs'
  simp only [Dict.values, List.map_map] at hsubs hsubs'
  rw [Exc.mapM_ok, List.forall₂_map_left_iff] at hsubs hsubs'
  have key : ∀ (hs : List (String × List Op)) (subs' subs : List ExtractionSummary),
      (∀ nh ∈ hs, ∀ op ∈ nh.2, 0 ≤ op.cap) →
      List.Forall₂ (fun nh s => (runCell nh.1 nh.2).summarizeR fl sm = .ok s) hs subs' →
      List.Forall₂ (fun nh s => (runCell nh.1 nh.2).summarize = .ok s) hs subs →
      subs.length = hs.length ∧
      List.Forall₂ (fun e' e => TNear u (fun k => (hs.map fun nh => ccount k (runCell nh.1 nh.2)).sum + 5)
        e'.capacitances e.capacitances ∧ (Dict.keys e.capacitances).Nodup ∧
          ∀ k ∈ Dict.keys e.capacitances, k.normed = k) subs' subs := by
    intro hs
    induction hs with
    | nil =>
      intro subs' subs _ h1 h2
      cases h1; cases h2
      exact ⟨rfl, .nil⟩
    | cons nh hs ih =>
      intro subs' subs hp h1 h2
      cases h1 with
      | cons hx' hl' =>
        cases h2 with
        | cons hx hl =>
          obtain ⟨hlen, ih⟩ := ih _ _ (fun nh' hm => hp nh' (List.mem_cons_of_mem _ hm)) hl' hl
          have hc := cell_near hr hsm (cfilled_run nh.1 nh.2 (hp nh (by simp))) hx' hx
          refine ⟨by simp [hlen], .cons ⟨hc.1.mono hr.1 hr.2.1 fun k _ => ?_, hc.2⟩ (ih.imp fun e' e he =>
            ⟨he.1.mono hr.1 hr.2.1 fun k _ => ?_, he.2⟩)⟩
          · simp only [List.map_cons, List.sum_cons]; omega
          · simp only [List.map_cons, List.sum_cons]; omega
  obtain ⟨hlen, hk⟩ := key hs subs' subs hp hsubs' hsubs
  have hm := merged_near (fl := fl) hr hk
  refine ⟨reported_near hr.1 hr.2.1 hm a b _ fun k hkk hsp => ?_, hm.keys⟩
  have hkn : k = NetCoupleKey.normed ⟨a, b⟩ := by
    rw [← (samePair_iff_normed k.net1 k.net2 a b).1 hsp]
    exact (normed_merged _ k hkk).symm
  subst hkn
  simp only [ccount_run, records, hlen]
  omega

/-- **C115.** With rounded additions, the summary lists exactly the pairs between which capacitances were recorded, and the
value for each pair is the sum of the recorded ones up to the relative error of `n + c + 5` roundings, where `n` is the number
of capacitances recorded between the two nets and `c` the number of cells. -/
theorem summary_rounded (hr : Rounds fl u) (hsm : Sums sm u) (hs : List (String × List Op)) (hd : (hs.map Prod.fst).Nodup)
    (hp : ∀ nh ∈ hs, ∀ op ∈ nh.2, 0 ≤ op.cap) (s : ExtractionSummary)
    (h : summarizeAllR fl sm (runCells hs) = .ok s) (a b : String) :
    (1 - u) ^ (records a b hs + hs.length + 5) * (hs.map fun nh => recorded a b nh.2).sum ≤ reported s.capacitances a b ∧
    reported s.capacitances a b ≤ (1 + u) ^ (records a b hs + hs.length + 5) * (hs.map fun nh => recorded a b nh.2).sum ∧
    (Lists s.capacitances a b ↔ ∃ nh ∈ hs, ∃ op ∈ nh.2, op.Couples a b) := by
  have hex : ∃ s₀, summarizeAll (runCells hs) = .ok s₀ := by
    unfold summarizeAllR at h
    rw [Exc.bind_ok] at h
    obtain ⟨subs', h1, -⟩ := h
    have h2 := (mapM_ok_iff_all _ _).1 ⟨_, h1⟩
    obtain ⟨subs, h3⟩ := (mapM_ok_iff_all CellResults.summarize (runCells hs).values).2
      fun r hr => (cell_ok_iff fl sm r).1 (h2 r hr)
    unfold summarizeAll
    rw [h3]
    exact ⟨_, rfl⟩
  obtain ⟨s₀, h₀⟩ := hex
  obtain ⟨hn, hk⟩ := all_near hr hsm hs hd hp h h₀ a b
  obtain ⟨e1, e2⟩ := summary_conserves_capacitance_all_cells hs hd s₀ h₀ a b
  rw [e1] at hn
  exact ⟨hn.1, hn.2, (lists_of_keys hk a b).trans e2⟩

/-- C115: rounding does not decide whether there is a summary. -/
theorem summary_rounded_exists (fl : ℚ → ℚ) (sm : List ℚ → ℚ) (cells : Dict String CellResults) :
    (∃ s, summarizeAllR fl sm cells = .ok s) ↔ ∃ s, summarizeAll cells = .ok s := by
  unfold summarizeAllR summarizeAll
  simp only [Exc.bind_ok, Exc.pure_ok]
  have e := mapM_ok_iff_all (CellResults.summarizeR fl sm) cells.values
  have e' := mapM_ok_iff_all CellResults.summarize cells.values
  simp only [cell_ok_iff] at e
  rw [← e'] at e
  constructor
  · rintro ⟨_, r, h, -⟩; obtain ⟨r', h'⟩ := e.1 ⟨r, h⟩; exact ⟨_, r', h', rfl⟩
  · rintro ⟨_, r, h, -⟩; obtain ⟨r', h'⟩ := e.2 ⟨r, h⟩; exact ⟨_, r', h', rfl⟩

theorem forall₂_map_eq {α β γ : Type} {f : α → γ} {g : β → γ} {l : List α} {m : List β}
    (h : List.Forall₂ (fun x y => f x = g y) l m) : l.map f = m.map g := by
  induction h with
  | nil => rfl
  | cons hx _ ih => rw [List.map_cons, List.map_cons, hx, ih]

theorem forall₂_mem {α β : Type} {R : α → β → Prop} {l : List α} {m : List β} (h : List.Forall₂ R l m) {y : β} (hy : y ∈ m) :
    ∃ x ∈ l, R x y := by
  induction h with
  | nil => cases hy
  | cons hx _ ih =>
    rcases List.mem_cons.1 hy with rfl | hy
    · exact ⟨_, by simp, hx⟩
    · obtain ⟨x, hm, h⟩ := ih hy
      exact ⟨x, by simp [hm], h⟩

/-- **C115** (order).  Recording in another order, and visiting the cells in another order, changes a value by no more than
this error on both sides. -/
theorem summary_rounded_order (hr : Rounds fl u) (hsm : Sums sm u) (hs₁ hs₂ : List (String × List Op))
    (hd₁ : (hs₁.map Prod.fst).Nodup) (hd₂ : (hs₂.map Prod.fst).Nodup)
    (hperm : ∃ hs, hs₁.Perm hs ∧ List.Forall₂ (fun x y => x.1 = y.1 ∧ x.2.Perm y.2) hs hs₂)
    (hp : ∀ nh ∈ hs₁, ∀ op ∈ nh.2, 0 ≤ op.cap) (s₁ s₂ : ExtractionSummary)
    (h₁ : summarizeAllR fl sm (runCells hs₁) = .ok s₁) (h₂ : summarizeAllR fl sm (runCells hs₂) = .ok s₂) (a b : String) :
    (1 - u) ^ (records a b hs₁ + hs₁.length + 5) * reported s₁.capacitances a b ≤
      (1 + u) ^ (records a b hs₁ + hs₁.length + 5) * reported s₂.capacitances a b := by
  obtain ⟨hs, hp1, hp2⟩ := hperm
  have hlen : hs₁.length = hs₂.length := hp1.length_eq.trans hp2.length_eq
  have hrec : (hs₁.map fun nh => recorded a b nh.2).sum = (hs₂.map fun nh => recorded a b nh.2).sum := by
    rw [(hp1.map _).sum_eq]
    exact congrArg _ (forall₂_map_eq (hp2.imp fun x y h => ((h.2.filter _).map _).sum_eq))
  have hcnt : records a b hs₁ = records a b hs₂ := by
    unfold records
    rw [(hp1.map _).sum_eq]
    exact congrArg _ (forall₂_map_eq (hp2.imp fun x y h => (h.2.filter _).length_eq))
  have hpos₂ : ∀ nh ∈ hs₂, ∀ op ∈ nh.2, 0 ≤ op.cap := by
    intro nh hm op ho
    obtain ⟨x, hx, hxy⟩ := forall₂_mem hp2 hm
    exact hp x (hp1.mem_iff.2 hx) op (hxy.2.mem_iff.2 ho)
  have r1 := summary_rounded hr hsm hs₁ hd₁ hp s₁ h₁ a b
  have r2 := summary_rounded hr hsm hs₂ hd₂ hpos₂ s₂ h₂ a b
  rw [← hrec, ← hcnt, ← hlen] at r2
  obtain ⟨n, hn⟩ : ∃ n, n = records a b hs₁ + hs₁.length + 5 := ⟨_, rfl⟩
  rw [← hn] at r1 r2 ⊢
  have h0 := hr.1
  have h1 := hr.2.1
  calc (1 - u) ^ n * reported s₁.capacitances a b
      ≤ (1 - u) ^ n * ((1 + u) ^ n * (hs₁.map fun nh => recorded a b nh.2).sum) :=
        mul_le_mul_of_nonneg_left r1.2.1 (pow_nonneg (by linarith) n)
    _ = (1 + u) ^ n * ((1 - u) ^ n * (hs₁.map fun nh => recorded a b nh.2).sum) := by ring
    _ ≤ (1 + u) ^ n * reported s₂.capacitances a b := mul_le_mul_of_nonneg_left r2.1 (pow_nonneg (by linarith) n)

/-! ## Example -/

/-- Two cells with records between `A` and `B` in all tables. -/
def roundedHist : List (String × List Op) :=
  [("TOP", [.overlap ⟨⟨"met2", "A", "met1", "B"⟩, 2, 0, 1⟩, .sidewall ⟨⟨"met1", "B", "A"⟩, 3, 1, 1⟩,
      .overlap ⟨⟨"met2", "A", "met1", "B"⟩, 4, 0, 1⟩, .sideoverlap ⟨⟨"met1", "A", "met2", "C"⟩, 5⟩]),
    ("SUB", [.sideoverlap ⟨⟨"met1", "A", "met2", "B"⟩, 1⟩])]

/-- A rounding with an error of 0.1 %: the hypotheses are met, there is a summary, and it is not exact. -/
theorem rounded_example :
    Rounds (fun x : ℚ => 1001 / 1000 * x) (1 / 1000) ∧
    Sums (fun l => l.foldl (fun s x => 1001 / 1000 * (s + x)) 0) (1 / 1000) ∧
    (roundedHist.map Prod.fst).Nodup ∧ (∀ nh ∈ roundedHist, ∀ op ∈ nh.2, 0 ≤ op.cap) ∧ records "B" "A" roundedHist = 4 ∧
    ∃ s, summarizeAllR (fun x => 1001 / 1000 * x) (fun l => l.foldl (fun s x => 1001 / 1000 * (s + x)) 0)
        (runCells roundedHist) = .ok s ∧
      10 < reported s.capacitances "A" "B" ∧ reported s.capacitances "A" "B" < 101 / 10 := by
  have hr : Rounds (fun x : ℚ => 1001 / 1000 * x) (1 / 1000) := by
    refine ⟨by norm_num, by norm_num, fun x => ?_⟩
    have : (1001 / 1000 * x - x : ℚ) = 1 / 1000 * x := by ring
    rw [this, abs_mul, abs_of_pos (by norm_num : (0 : ℚ) < 1 / 1000)]
  refine ⟨hr, sums_loop hr, by decide, ?_, by decide, _, rfl, ?_, ?_⟩
  · intro nh hm op ho
    simp only [roundedHist, List.mem_cons, List.not_mem_nil, or_false] at hm
    rcases hm with rfl | rfl <;> simp only [List.mem_cons, List.not_mem_nil, or_false] at ho
    · rcases ho with rfl | rfl | rfl | rfl <;> norm_num [Op.cap]
    · subst ho; norm_num [Op.cap]
  · decide +kernel
  · decide +kernel

end Verif.Summary
