import Mathlib.Algebra.Order.Ring.Rat
import Mathlib.Algebra.BigOperators.Group.List.Basic
import Mathlib.Tactic.FieldSimp
import Mathlib.Tactic.Ring
import Mathlib.Tactic.Linarith
import Verif.Decks.Reader

/-!
# Combining devices in LVS of sg13g2 (C134)

pdk/ihp_sg13g2/libs.tech/kpex/rule_decks/custom_combiner.lvs 27–199. A net is given by its expanded name, which is unique in a
circuit unless a net is named like `$3`; numbers are exact.
-/

namespace Verif.Decks

/-! ### Model -/

/-- A device in a circuit: the net at each terminal, if any, and the parameters. -/
structure Dev where
  net : String → Option Str
  par : String → ℚ

/-- `same_net`; custom_combiner.lvs 32–39. -/
def sameNet (a b : Dev) (t : String) : Bool :=
  match a.net t, b.net t with
  | some x, some y => x == y
  | _, _ => false

/-- `same_parameter`; custom_combiner.lvs 90–92. -/
def sameParameter (a b : Dev) (k : String) : Bool := decide (|a.par k - b.par k| < 1 / 1000000000)

/-- `a.set_parameter(k, a.parameter(k) + b.parameter(k))`. -/
def addParameter (a b : Dev) (k : String) : Dev := { a with par := fun j => if j = k then a.par k + b.par k else a.par j }

/-- `b.disconnect_terminal(t)`. -/
def disconnect (b : Dev) (t : String) : Dev := { b with net := fun s => if s = t then none else b.net s }

/-- `MIMCAPNDeviceCombiner.combine_devices`; custom_combiner.lvs 99–117. The combiner is used for `cap_cmim` only
(custom_mim_extractor.lvs 77–81), so the branch for `rfcmim` is left out. -/
def combineMim (a b : Dev) : Bool × Dev × Dev :=
  if !(sameNet a b "mim_top" && sameNet a b "mim_btm") then (false, a, b)
  else if !(sameParameter a b "w" && sameParameter a b "l") then (false, a, b)
  else (true, addParameter a b "m", disconnect (disconnect b "mim_top") "mim_btm")

/-- `DiodeDeviceCombiner.combine_devices`; custom_combiner.lvs 124–139. -/
def combineDiode (a b : Dev) : Bool × Dev × Dev :=
  if !(sameNet a b "A" && sameNet a b "C") then (false, a, b)
  else if !(sameParameter a b "A" && sameParameter a b "P") then (false, a, b)
  else (true, addParameter a b "m", disconnect (disconnect b "A") "C")

/-- `bjt_nets`; custom_combiner.lvs 147–151. -/
def bjtNets (name : Str) : List String := if has name "pnp" then ["C", "B", "E"] else ["C", "B", "E", "S"]

/-- `BJTDeviceCombiner.combine_devices`; custom_combiner.lvs 146–167. -/
def combineBjt (name : Str) (a b : Dev) : Bool × Dev × Dev :=
  if !((bjtNets name).all (sameNet a b)) then (false, a, b)
  else if !(["AE", "PE"].all (sameParameter a b)) then (false, a, b)
  else (true, addParameter (addParameter a b "m") b "NE", (bjtNets name).foldl disconnect b)

/-- `supp_parallel`; custom_combiner.lvs 42–54. -/
def suppParallel (a b : Dev) : Bool :=
  match a.net "0", b.net "0", a.net "1", b.net "1" with
  | some a1, some b1, some a2, some b2 => (a1 == b1 && a2 == b2) || (a1 == b2 && a2 == b1)
  | _, _, _, _ => false

/-- `a.connect_terminal(t, n)`. -/
def connectTo (a : Dev) (t : String) (n : Str) : Dev := { a with net := fun s => if s = t then some n else a.net s }

/-- `supp_series`; custom_combiner.lvs 57–87: the answer, and the first device afterwards. -/
def suppSeries (a b : Dev) : Bool × Dev :=
  match a.net "0", b.net "0", a.net "1", b.net "1" with
  | some a1, some b1, some a2, some b2 =>
    let c1 := a1 == b1 || a1 == b2
    let c2 := a2 == b1 || a2 == b2
    let a' := if c1 then (if a1 == b1 then connectTo a "0" b2 else connectTo a "0" b1) else a
    let a'' := if c2 then (if a2 == b1 then connectTo a' "1" b2 else connectTo a' "1" b1) else a'
    (c1 || c2, a'')
  | _, _, _, _ => (false, a)

/-- `RESDeviceCombiner.combine_devices`; custom_combiner.lvs 174–198. `par` and `ser` are the options `PARALLEL_RES` and
`SERIES_RES`. -/
def combineRes (par ser : Bool) (a b : Dev) : Bool × Dev × Dev :=
  if suppParallel a b then
    if !par then (false, a, b)
    else if !(["w", "l", "ps", "b"].all (sameParameter a b)) then (false, a, b)
    else (true, addParameter a b "m", disconnect (disconnect b "0") "1")
  else
    let (s, a') := suppSeries a b
    if s then
      if !ser then (false, a', b)
      else if !(["w", "ps", "b", "m"].all (sameParameter a' b)) then (false, a', b)
      else (true, addParameter a' b "l", disconnect (disconnect b "0") "1")
    else (false, a', b)

/-! ### Specification -/

/-- The behaviour of a kind of device: the current into each terminal, for the sizes of the device and the voltages at its
terminals. A device of multiplicity `m` draws `m` times as much. -/
abbrev Law := List ℚ → (String → ℚ) → String → ℚ

/-- The current that the device draws from the net `x` if the nets have the voltages `v`. -/
def draws (f : Law) (terms sizes : List String) (d : Dev) (v : Option Str → ℚ) (x : Str) : ℚ :=
  (terms.map fun t => if d.net t = some x then d.par "m" * f (sizes.map d.par) (fun s => v (d.net s)) t else 0).sum

/-- The two devices draw the same currents from all nets before and after, for every behaviour of devices of their kind. -/
def SameCurrents (terms sizes : List String) (a b a' b' : Dev) : Prop :=
  ∀ (f : Law) (v : Option Str → ℚ) (x : Str), (∀ q w w', (∀ t ∈ terms, w t = w' t) → f q w = f q w') →
    draws f terms sizes a' v x + draws f terms sizes b' v x = draws f terms sizes a v x + draws f terms sizes b v x

/-- A resistor between two nets with conductance `m * k / l`, where `k` depends on the other sizes. -/
structure IsRes (k : ℚ → ℚ → ℚ → ℚ) (d : Dev) (x y : Str) (g : ℚ) : Prop where
  first : d.net "0" = some x
  second : d.net "1" = some y
  value : g = d.par "m" * k (d.par "w") (d.par "ps") (d.par "b") / d.par "l"

/-- A resistor between two nets, in either direction. -/
def Between (k : ℚ → ℚ → ℚ → ℚ) (d : Dev) (x y : Str) (g : ℚ) : Prop := IsRes k d x y g ∨ IsRes k d y x g

/-! ### Proofs -/

theorem sameNet_iff {a b : Dev} {t : String} : sameNet a b t = true ↔ ∃ x, a.net t = some x ∧ b.net t = some x := by
  unfold sameNet
  cases h1 : a.net t <;> cases h2 : b.net t
  · simp
  · simp
  · simp
  · rename_i x y
    constructor
    · intro h
      exact ⟨x, rfl, by rw [eq_of_beq (a := x) (b := y) h]⟩
    · rintro ⟨z, e1, e2⟩
      cases e1
      cases e2
      exact beq_self_eq_true x

theorem sameParameter_eq {a b : Dev} {k : String} (h : a.par k = b.par k) : sameParameter a b k = true := by
  simp [sameParameter, h]

theorem same_currents {terms sizes : List String} {a b a' b' : Dev} (hn : ∀ t ∈ terms, a.net t = b.net t)
    (hp : ∀ k ∈ sizes, a.par k = b.par k) (hnet : a'.net = a.net) (hm : a'.par "m" = a.par "m" + b.par "m")
    (hs : ∀ k ∈ sizes, a'.par k = a.par k) (hb : ∀ t ∈ terms, b'.net t = none) : SameCurrents terms sizes a b a' b' := by
  intro f v x hf
  have e1 : sizes.map b.par = sizes.map a.par := List.map_congr_left fun k hk => (hp k hk).symm
  have e2 : sizes.map a'.par = sizes.map a.par := List.map_congr_left hs
  have e3 : f (sizes.map a.par) (fun s => v (b.net s)) = f (sizes.map a.par) (fun s => v (a.net s)) :=
    hf _ _ _ fun t ht => by rw [hn t ht]
  have h0 : draws f terms sizes b' v x = 0 := by
    unfold draws
    rw [List.map_congr_left (g := fun _ => (0 : ℚ)) fun t ht => by simp [hb t ht]]
    simp
  have hb' : draws f terms sizes b v x =
      (terms.map fun t => if a.net t = some x then b.par "m" * f (sizes.map a.par) (fun s => v (a.net s)) t else 0).sum := by
    unfold draws
    rw [e1, e3]
    exact congrArg List.sum (List.map_congr_left fun t ht => by rw [hn t ht])
  rw [h0, add_zero, hb']
  unfold draws
  rw [hnet, hm, e2, ← List.sum_map_add]
  refine congrArg List.sum (List.map_congr_left fun t _ => ?_)
  split
  · ring
  · simp

/-! ### C134 -/

/-- **C134.** Combined MIM capacitors of equal sizes draw the same currents as before; the second one is disconnected. -/
theorem mim_combined (a b a' b' : Dev) (h : combineMim a b = (true, a', b')) (hw : a.par "w" = b.par "w")
    (hl : a.par "l" = b.par "l") :
    SameCurrents ["mim_top", "mim_btm"] ["w", "l"] a b a' b' ∧ ∀ t ∈ ["mim_top", "mim_btm"], b'.net t = none := by
  unfold combineMim at h
  split_ifs at h with h1 h2
  · exact absurd (congrArg Prod.fst h) (by simp)
  · exact absurd (congrArg Prod.fst h) (by simp)
  simp only [Prod.mk.injEq, true_and] at h
  obtain ⟨rfl, rfl⟩ := h
  simp only [Bool.not_eq_true', Bool.not_eq_false, Bool.and_eq_true, sameNet_iff] at h1
  obtain ⟨⟨x, n1, n2⟩, y, n3, n4⟩ := h1
  have hb : ∀ t ∈ ["mim_top", "mim_btm"], (disconnect (disconnect b "mim_top") "mim_btm").net t = none := by
    simp [disconnect]
  refine ⟨same_currents ?_ ?_ rfl rfl ?_ hb, hb⟩
  · simp [n1, n2, n3, n4]
  · simp [hw, hl]
  · simp [addParameter]

/-- **C134.** Combined diodes of equal sizes draw the same currents as before; the second one is disconnected. -/
theorem diode_combined (a b a' b' : Dev) (h : combineDiode a b = (true, a', b')) (hA : a.par "A" = b.par "A")
    (hP : a.par "P" = b.par "P") :
    SameCurrents ["A", "C"] ["A", "P"] a b a' b' ∧ ∀ t ∈ ["A", "C"], b'.net t = none := by
  unfold combineDiode at h
  split_ifs at h with h1 h2
  · exact absurd (congrArg Prod.fst h) (by simp)
  · exact absurd (congrArg Prod.fst h) (by simp)
  simp only [Prod.mk.injEq, true_and] at h
  obtain ⟨rfl, rfl⟩ := h
  simp only [Bool.not_eq_true', Bool.not_eq_false, Bool.and_eq_true, sameNet_iff] at h1
  obtain ⟨⟨x, n1, n2⟩, y, n3, n4⟩ := h1
  have hb : ∀ t ∈ ["A", "C"], (disconnect (disconnect b "A") "C").net t = none := by simp [disconnect]
  refine ⟨same_currents ?_ ?_ rfl rfl ?_ hb, hb⟩
  · simp [n1, n2, n3, n4]
  · simp [hA, hP]
  · simp [addParameter]

theorem foldl_disconnect : ∀ (ts : List String) (b : Dev) (t : String),
    (ts.foldl disconnect b).net t = if t ∈ ts then none else b.net t
  | [], _, _ => by simp
  | s :: ts, b, t => by
    rw [List.foldl_cons, foldl_disconnect ts]
    by_cases h : t ∈ ts
    · simp [h]
    · by_cases h' : t = s <;> simp [h, h', disconnect]

/-- **C134.** Combined bipolar transistors of equal emitters draw the same currents as before; the second one is
disconnected. The terminals are those of the model: a pnp has no substrate terminal. -/
theorem bjt_combined (name : Str) (terms : List String)
    (ht : ("pnp".toList <:+: name.map Char.toLower → terms = ["C", "B", "E"]) ∧
      (¬ "pnp".toList <:+: name.map Char.toLower → terms = ["C", "B", "E", "S"]))
    (a b a' b' : Dev) (h : combineBjt name a b = (true, a', b')) (hA : a.par "AE" = b.par "AE") (hP : a.par "PE" = b.par "PE") :
    SameCurrents terms ["AE", "PE"] a b a' b' ∧ (∀ t ∈ terms, b'.net t = none) ∧ a'.par "NE" = a.par "NE" + b.par "NE" := by
  have hterms : terms = bjtNets name := by
    unfold bjtNets has lower
    by_cases hp : "pnp".toList <:+: name.map Char.toLower
    · rw [ht.1 hp, if_pos (decide_eq_true hp)]
    · rw [ht.2 hp, if_neg (by simpa using hp)]
  unfold combineBjt at h
  split_ifs at h with h1 h2
  · exact absurd (congrArg Prod.fst h) (by simp)
  · exact absurd (congrArg Prod.fst h) (by simp)
  simp only [Prod.mk.injEq, true_and] at h
  obtain ⟨rfl, rfl⟩ := h
  simp only [Bool.not_eq_true', Bool.not_eq_false, List.all_eq_true, sameNet_iff] at h1
  have hb : ∀ t ∈ terms, ((bjtNets name).foldl disconnect b).net t = none := fun t h => by
    rw [foldl_disconnect, if_pos (hterms ▸ h)]
  refine ⟨same_currents ?_ ?_ rfl (by simp [addParameter]) ?_ hb, hb, by simp [addParameter]⟩
  · intro t h
    obtain ⟨x, n1, n2⟩ := h1 t (hterms ▸ h)
    rw [n1, n2]
  · simp [hA, hP]
  · simp [addParameter]

/-- **C134.** Devices are combined only if their sizes differ by less than a billionth of a micrometre. -/
theorem combined_close (name : Str) (a b a' b' : Dev) :
    (combineMim a b = (true, a', b') → ∀ s ∈ ["w", "l"], |a.par s - b.par s| < 1 / 1000000000) ∧
    (combineDiode a b = (true, a', b') → ∀ s ∈ ["A", "P"], |a.par s - b.par s| < 1 / 1000000000) ∧
    (combineBjt name a b = (true, a', b') → ∀ s ∈ ["AE", "PE"], |a.par s - b.par s| < 1 / 1000000000) := by
  unfold combineMim combineDiode combineBjt
  refine ⟨fun h => ?_, fun h => ?_, fun h => ?_⟩ <;> split_ifs at h with h1 h2
  all_goals first
    | exact absurd (congrArg Prod.fst h) Bool.false_ne_true
    | simpa [sameParameter] using h2

/-- **C134.** If capacitors, diodes or bipolar transistors are not combined, they stay as they are. -/
theorem refused_kept (name : Str) (a b a' b' : Dev)
    (h : combineMim a b = (false, a', b') ∨ combineDiode a b = (false, a', b') ∨ combineBjt name a b = (false, a', b')) :
    a' = a ∧ b' = b := by
  unfold combineMim combineDiode combineBjt at h
  rcases h with h | h | h <;> split_ifs at h <;> simp_all

/-- **C134.** Parallel resistors of equal sizes are combined to one with the sum of their conductances. -/
theorem res_parallel (k : ℚ → ℚ → ℚ → ℚ) (ser : Bool) (a b : Dev) (x y : Str) (ga gb : ℚ) (ha : Between k a x y ga)
    (hb : Between k b x y gb) (hs : ∀ s ∈ ["w", "l", "ps", "b"], a.par s = b.par s) :
    ∃ a' b', combineRes true ser a b = (true, a', b') ∧ Between k a' x y (ga + gb) ∧ ∀ t ∈ ["0", "1"], b'.net t = none := by
  have hpar : suppParallel a b = true := by
    unfold suppParallel
    rcases ha with ha | ha <;> rcases hb with hb | hb <;> simp [ha.first, ha.second, hb.first, hb.second]
  have hall : ["w", "l", "ps", "b"].all (sameParameter a b) = true := by
    rw [List.all_eq_true]
    exact fun s h => sameParameter_eq (hs s h)
  refine ⟨addParameter a b "m", disconnect (disconnect b "0") "1", ?_, ?_, by simp [disconnect]⟩
  · unfold combineRes
    rw [hpar, hall]
    rfl
  · have hw := hs "w" (by simp)
    have hl := hs "l" (by simp)
    have hps := hs "ps" (by simp)
    have hbb := hs "b" (by simp)
    have hg : ga + gb = (addParameter a b "m").par "m" * k ((addParameter a b "m").par "w") ((addParameter a b "m").par "ps")
        ((addParameter a b "m").par "b") / (addParameter a b "m").par "l" := by
      have e1 : ga = a.par "m" * k (a.par "w") (a.par "ps") (a.par "b") / a.par "l" := by rcases ha with h | h <;> exact h.value
      have e2 : gb = b.par "m" * k (b.par "w") (b.par "ps") (b.par "b") / b.par "l" := by rcases hb with h | h <;> exact h.value
      rw [e1, e2, ← hw, ← hl, ← hps, ← hbb]
      simp only [addParameter]
      rw [if_pos trivial, if_neg (by decide), if_neg (by decide), if_neg (by decide), if_neg (by decide)]
      ring
    rcases ha with h | h
    · exact .inl ⟨h.first, h.second, hg⟩
    · exact .inr ⟨h.first, h.second, hg⟩

set_option linter.unusedSimpArgs false in
/-- What `supp_series` does with two resistors that share the net `y`. -/
theorem suppSeries_between {k : ℚ → ℚ → ℚ → ℚ} {a b : Dev} {x y z : Str} {ga gb : ℚ} (ha : Between k a x y ga)
    (hb : Between k b y z gb) (hxy : x ≠ y) (hxz : x ≠ z) (hyz : y ≠ z) :
    suppParallel a b = false ∧ ∃ a', suppSeries a b = (true, a') ∧ Between k a' x z ga ∧ a'.par = a.par := by
  have h1 : ¬ y = x := fun h => hxy h.symm
  have h2 : ¬ z = x := fun h => hxz h.symm
  have h3 : ¬ z = y := fun h => hyz h.symm
  constructor
  · unfold suppParallel
    rcases ha with ha | ha <;> rcases hb with hb | hb <;>
      simp [ha.first, ha.second, hb.first, hb.second, hxy, hxz, hyz, h1, h2, h3]
  · rcases ha with ha | ha <;> rcases hb with hb | hb
    · refine ⟨connectTo a "1" z, ?_, .inl ⟨by simp [connectTo, ha.first], by simp [connectTo], ha.value⟩, rfl⟩
      simp [suppSeries, ha.first, ha.second, hb.first, hb.second, hxy, hxz, hyz, h1, h2, h3]
    · refine ⟨connectTo a "1" z, ?_, .inl ⟨by simp [connectTo, ha.first], by simp [connectTo], ha.value⟩, rfl⟩
      simp [suppSeries, ha.first, ha.second, hb.first, hb.second, hxy, hxz, hyz, h1, h2, h3]
    · refine ⟨connectTo a "0" z, ?_, .inr ⟨by simp [connectTo], by simp [connectTo, ha.second], ha.value⟩, rfl⟩
      simp [suppSeries, ha.first, ha.second, hb.first, hb.second, hxy, hxz, hyz, h1, h2, h3]
    · refine ⟨connectTo a "0" z, ?_, .inr ⟨by simp [connectTo], by simp [connectTo, ha.second], ha.value⟩, rfl⟩
      simp [suppSeries, ha.first, ha.second, hb.first, hb.second, hxy, hxz, hyz, h1, h2, h3]

/-- **C134.** Resistors of equal width, spacing, bends and multiplicity in series are combined to one with the sum of their
resistances. -/
theorem res_series_partial (k : ℚ → ℚ → ℚ → ℚ) (par : Bool) (a b : Dev) (x y z : Str) (ga gb : ℚ) (ha : Between k a x y ga)
    (hb : Between k b y z gb) (hxy : x ≠ y) (hxz : x ≠ z) (hyz : y ≠ z) (hs : ∀ s ∈ ["w", "ps", "b", "m"], a.par s = b.par s) :
    ∃ a' b' g, combineRes par true a b = (true, a', b') ∧ Between k a' x z g ∧ 1 / g = 1 / ga + 1 / gb ∧
      ∀ t ∈ ["0", "1"], b'.net t = none := by
  obtain ⟨h0, a', h1, h2, h3⟩ := suppSeries_between ha hb hxy hxz hyz
  have hall : ["w", "ps", "b", "m"].all (sameParameter a' b) = true := by
    rw [List.all_eq_true]
    exact fun s h => sameParameter_eq (h3 ▸ hs s h)
  refine ⟨addParameter a' b "l", disconnect (disconnect b "0") "1",
    a.par "m" * k (a.par "w") (a.par "ps") (a.par "b") / (a.par "l" + b.par "l"), ?_, ?_, ?_, by simp [disconnect]⟩
  · simp [combineRes, h0, h1, hall]
  · have hv : a.par "m" * k (a.par "w") (a.par "ps") (a.par "b") / (a.par "l" + b.par "l") =
        (addParameter a' b "l").par "m" * k ((addParameter a' b "l").par "w") ((addParameter a' b "l").par "ps")
          ((addParameter a' b "l").par "b") / (addParameter a' b "l").par "l" := by
      simp [addParameter, h3]
    rcases h2 with h | h
    · exact .inl ⟨h.first, h.second, hv⟩
    · exact .inr ⟨h.first, h.second, hv⟩
  · have hw := hs "w" (by simp)
    have hm := hs "m" (by simp)
    have hps := hs "ps" (by simp)
    have hbb := hs "b" (by simp)
    have e1 : ga = a.par "m" * k (a.par "w") (a.par "ps") (a.par "b") / a.par "l" := by rcases ha with h | h <;> exact h.value
    have e2 : gb = a.par "m" * k (a.par "w") (a.par "ps") (a.par "b") / b.par "l" := by
      rw [hw, hm, hps, hbb]; rcases hb with h | h <;> exact h.value
    rw [e1, e2]
    simp only [one_div, inv_div]
    rw [add_div]

/-- C134 fails for resistors in series that are not combined, because their widths differ or the option forbids it: the first
resistor is moved from its nets to the outer ends all the same. -/
theorem refused_moved (k : ℚ → ℚ → ℚ → ℚ) (par ser : Bool) (a b : Dev) (x y z : Str) (ga gb : ℚ) (ha : Between k a x y ga)
    (hb : Between k b y z gb) (hxy : x ≠ y) (hxz : x ≠ z) (hyz : y ≠ z)
    (hr : ser = false ∨ 1 / 1000000000 ≤ |a.par "w" - b.par "w"|) :
    ∃ a', combineRes par ser a b = (false, a', b) ∧ Between k a' x z ga ∧ ¬ ∃ g, Between k a' x y g := by
  obtain ⟨h0, a', h1, h2, h3⟩ := suppSeries_between ha hb hxy hxz hyz
  refine ⟨a', ?_, h2, ?_⟩
  · rcases hr with rfl | hr
    · simp [combineRes, h0, h1]
    · have : sameParameter a' b "w" = false := by
        unfold sameParameter
        rw [h3]
        simpa using hr
      cases ser <;> simp [combineRes, h0, h1, this]
  · rintro ⟨g, h⟩
    rcases h2 with h2 | h2 <;> rcases h with h | h
    · exact hyz (Option.some.inj (h.second.symm.trans h2.second))
    · exact hxy (Option.some.inj (h2.first.symm.trans h.first))
    · exact hxz (Option.some.inj (h.first.symm.trans h2.first))
    · exact hyz (Option.some.inj (h.first.symm.trans h2.first))

/-- A resistor of width `w` and length 2 between two nets. -/
def exRes (x y : String) (w : ℚ) : Dev where
  net t := if t = "0" then some x.toList else if t = "1" then some y.toList else none
  par p := if p = "w" then w else if p = "l" then 2 else if p = "m" then 1 else 0

/-- C134: resistors that meet the hypotheses, with a conductance of width by length. -/
theorem combined_ex : Between (fun w _ _ => w) (exRes "a" "b" 1) "a".toList "b".toList (1 / 2) ∧
    Between (fun w _ _ => w) (exRes "b" "c" 1) "b".toList "c".toList (1 / 2) ∧
    (∀ s ∈ ["w", "ps", "b", "m"], (exRes "a" "b" 1).par s = (exRes "b" "c" 1).par s) ∧
    1 / 1000000000 ≤ |(exRes "a" "b" 1).par "w" - (exRes "b" "c" 3).par "w"| := by
  refine ⟨.inl ⟨rfl, rfl, ?_⟩, .inl ⟨rfl, rfl, ?_⟩, fun _ _ => rfl, ?_⟩
  · simp [exRes]
  · simp [exRes]
  · simp only [exRes, if_true]
    norm_num

/-- A device with equal nets at the terminals of a MIM capacitor, a diode and a transistor. -/
def exDev (w : ℚ) : Dev where
  net t := if t ∈ ["mim_top", "A", "C"] then some ['p'] else if t ∈ ["mim_btm", "B", "E", "S"] then some ['q'] else none
  par p := if p = "m" then 1 else w

/-- C134: devices that are combined, and devices that are not. -/
theorem devices_ex : (combineMim (exDev 5) (exDev 5)).1 = true ∧ (combineDiode (exDev 5) (exDev 5)).1 = true ∧
    (combineBjt "npn13G2".toList (exDev 5) (exDev 5)).1 = true ∧ (combineMim (exDev 5) (exDev 6)).1 = false ∧
    (combineMim (exDev 5) (exDev 5)).2.1.par "m" = 2 := by decide +kernel

end Verif.Decks
