import Mathlib.Data.List.Nodup
import Verif.NetJson.Model
import Verif.Common.Firsts
import Verif.Common.Text

/-!
# Net numbers of the JSON netlist (C47)
-/

namespace Verif.NetJson

/-! ### Specification -/

/-- The name of the net at a connection (the expanded name, or the name if that is empty). -/
def netName : Option Net → Str
  | some n => if n.expanded = [] then n.name else n.expanded
  | none => []

/-- The names of the nets at all connections, in the order of the document. -/
def netNames (c : Circuit) : List Str :=
  c.pins.map (fun p => netName p.net) ++ c.subs.flatMap (fun s => s.pins.map fun p => netName p.2) ++
    c.devices.flatMap (fun d => [netName d.a, netName d.b])

/-- All pins and terminals are connected and all devices are capacitors or resistors. -/
def Drawable (c : Circuit) : Prop :=
  (∀ p ∈ c.pins, p.net.isSome) ∧ (∀ s ∈ c.subs, ∀ p ∈ s.pins, p.2.isSome) ∧
    ∀ d ∈ c.devices, d.kind ≠ .other ∧ d.a.isSome ∧ d.b.isSome

/-- The entry of a pin, for a numbering of the net names. -/
def portEntry (num : Str → Nat) (p : Pin) : Str × Nat := (p.name, num (netName p.net))

/-- The connection of a pin of a subcircuit: its id and the expanded net name, and the number of the net. -/
def pinEntry (num : Str → Nat) (p : Nat × Option Net) : Str × Nat :=
  ((toString p.1).toList ++ '=' :: p.2.elim [] Net.expanded, num (netName p.2))

/-- The cell of a subcircuit, named by the circuit's name and cell index. -/
def subEntry (num : Str → Nat) (s : Sub) : Str × Cell :=
  (s.name ++ (toString s.cellIndex).toList, ⟨'$' :: s.name, Dict.ofList (s.pins.map (pinEntry num)), []⟩)

/-- The cell of a device. -/
def deviceEntry (capText resText : ℚ → Str) (num : Str → Nat) (d : Device) : Str × Cell :=
  (if d.kind = .cap then 'C' :: d.name else 'R' :: d.name,
    ⟨if d.kind = .cap then "c_v".toList else "r_v".toList,
     [("A".toList, num (netName d.a)), ("B".toList, num (netName d.b))],
     if d.kind = .cap then capText (d.value * 10 ^ 15) ++ "f".toList else resText d.value⟩)

/-- The ground symbols: one for each of the nets `VSUBS` and `GND` that occurs. -/
def groundEntries (num : Str → Nat) (names : List Str) : List (Str × Cell) :=
  if "VSUBS".toList ∈ names then
    ("gnd".toList, ⟨"gnd".toList, [("A".toList, num "VSUBS".toList)], "VSUBS".toList⟩) ::
      (if "GND".toList ∈ names then
        [("gnd1".toList, ⟨"gnd".toList, [("A".toList, num "GND".toList)], "GND".toList⟩)] else [])
  else if "GND".toList ∈ names then
    [("gnd".toList, ⟨"gnd".toList, [("A".toList, num "GND".toList)], "GND".toList⟩)]
  else []

/-- A numbering of the names: different names have different numbers, and the numbers used are 0, 1, …, one for each name. -/
def Numbering (num : Str → Nat) (names : List Str) : Prop :=
  (∀ n ∈ names, ∀ m ∈ names, num n = num m ↔ n = m) ∧
  ∃ k, ∀ i, i < k ↔ ∃ n ∈ names, num n = i

/-! ### The numbers given -/

theorem key_eq (n : Net) : n.key = netName (some n) := rfl

theorem firsts_append (l m : List Str) : ∃ r, firsts (l ++ m) = firsts l ++ r := by
  induction m using List.reverseRecOn with
  | nil => exact ⟨[], by simp⟩
  | append_singleton m x ih =>
    obtain ⟨r, hr⟩ := ih
    rw [← List.append_assoc, firsts_snoc]
    by_cases h : x ∈ firsts (l ++ m)
    · rw [if_pos h]; exact ⟨r, hr⟩
    · rw [if_neg h, hr]; exact ⟨r ++ [x], by rw [List.append_assoc]⟩

/-- The number of a name: its place among the different names. -/
def place (names : List Str) (n : Str) : Nat := (firsts names).idxOf n

theorem place_append (l m : List Str) (n : Str) (h : n ∈ l) : place (l ++ m) n = place l n := by
  obtain ⟨r, hr⟩ := firsts_append l m
  unfold place
  rw [hr, List.idxOf_append_of_mem ((mem_firsts _ _).2 h)]

theorem place_numbering (names : List Str) : Numbering (place names) names := by
  refine ⟨fun n hn m hm => ?_, (firsts names).length, fun i => ?_⟩
  · exact List.idxOf_inj ((mem_firsts _ _).2 hn)
  · constructor
    · intro hi
      refine ⟨(firsts names)[i], (mem_firsts _ _).1 (List.getElem_mem hi), ?_⟩
      exact List.Nodup.idxOf_getElem (nodup_firsts names) i hi
    · rintro ⟨n, hn, rfl⟩
      exact List.idxOf_lt_length_iff.2 ((mem_firsts _ _).2 hn)

/-- The state after the names `l` have been numbered. -/
def Inv (w : Writer) (l : List Str) : Prop :=
  w.nextId = (firsts l).length ∧ ∀ n, w.ids.get? n = if n ∈ l then some (place l n) else none

theorem inv_nil : Inv {} [] := ⟨rfl, fun n => by simp⟩

theorem getId_inv (w : Writer) (l : List Str) (h : Inv w l) (n : Net) :
    Inv (w.getId n).1 (l ++ [n.key]) ∧ (w.getId n).2 = place (l ++ [n.key]) n.key := by
  unfold Writer.getId
  by_cases hm : n.key ∈ l
  · have e : firsts (l ++ [n.key]) = firsts l := by rw [firsts_snoc, if_pos ((mem_firsts _ _).2 hm)]
    rw [h.2, if_pos hm]
    refine ⟨⟨by rw [e]; exact h.1, fun m => ?_⟩, ?_⟩
    · rw [h.2]
      by_cases hml : m ∈ l
      · rw [if_pos hml, if_pos (by simp [hml]), place_append _ _ _ hml]
      · rw [if_neg hml, if_neg]
        rw [List.mem_append, List.mem_singleton]
        rintro (h' | rfl)
        · exact hml h'
        · exact hml hm
    · exact (place_append _ _ _ hm).symm
  · have hm' : n.key ∉ firsts l := fun h' => hm ((mem_firsts _ _).1 h')
    have e : firsts (l ++ [n.key]) = firsts l ++ [n.key] := by rw [firsts_snoc, if_neg hm']
    have hp : place (l ++ [n.key]) n.key = (firsts l).length := by
      unfold place
      rw [e, List.idxOf_append_of_notMem hm']
      simp
    rw [h.2, if_neg hm]
    refine ⟨⟨by rw [e, h.1]; simp, fun m => ?_⟩, by rw [hp]; exact h.1⟩
    show (w.ids.set n.key w.nextId).get? m = _
    rw [Dict.get?_set, h.2]
    by_cases hmn : n.key = m
    · subst hmn
      rw [if_pos rfl, if_pos (by simp), hp, h.1]
    · rw [if_neg hmn]
      by_cases hml : m ∈ l
      · rw [if_pos hml, if_pos (by simp [hml]), place_append _ _ _ hml]
      · rw [if_neg hml, if_neg]
        rw [List.mem_append, List.mem_singleton]
        rintro (h' | rfl)
        · exact hml h'
        · exact hmn rfl

/-! ### The parts of the document -/

theorem ofList_append_foldl {κ ν : Type} [DecidableEq κ] (l m : List (κ × ν)) :
    m.foldl (fun d kv => Dict.set d kv.1 kv.2) (Dict.ofList l) = Dict.ofList (l ++ m) := by
  unfold Dict.ofList; rw [List.foldl_append]

theorem ports_exact (ps : List Pin) (w : Writer) (l : List Str) (h : Inv w l) (d : Dict Str Nat)
    (hc : ∀ p ∈ ps, p.net.isSome) (more : List Str) :
    ∃ w', ports w d ps = .ok (w', (ps.map (portEntry (place (l ++ ps.map (fun p => netName p.net) ++ more)))).foldl
      (fun d kv => Dict.set d kv.1 kv.2) d) ∧ Inv w' (l ++ ps.map fun p => netName p.net) := by
  induction ps generalizing w l d with
  | nil => exact ⟨w, rfl, by simpa using h⟩
  | cons p ps ih =>
    obtain ⟨nm, o⟩ := p
    cases o with
    | none => exact absurd (hc _ List.mem_cons_self) (by simp)
    | some n =>
      obtain ⟨hi, hn⟩ := getId_inv w l h n
      obtain ⟨w', hw, hi'⟩ := ih _ _ hi (d.set nm (w.getId n).2) fun p hp => hc p (List.mem_cons_of_mem _ hp)
      have e : l ++ ((⟨nm, some n⟩ : Pin) :: ps).map (fun p => netName p.net) =
          l ++ [n.key] ++ ps.map fun p => netName p.net := by simp [key_eq]
      refine ⟨w', ?_, by rw [e]; exact hi'⟩
      unfold ports
      simp only
      rw [hw, e, List.map_cons, List.foldl_cons]
      have : portEntry (place (l ++ [n.key] ++ List.map (fun p => netName p.net) ps ++ more)) ⟨nm, some n⟩ =
          (nm, (w.getId n).2) := by
        unfold portEntry
        rw [← key_eq, hn, List.append_assoc (l ++ [n.key]), place_append _ _ _ (by simp)]
      rw [this]

theorem conns_exact (ps : List (Nat × Option Net)) (w : Writer) (l : List Str) (h : Inv w l) (d : Dict Str Nat)
    (hc : ∀ p ∈ ps, p.2.isSome) (more : List Str) :
    ∃ w', conns w d ps = .ok (w', (ps.map (pinEntry (place (l ++ ps.map (fun p => netName p.2) ++ more)))).foldl
      (fun d kv => Dict.set d kv.1 kv.2) d) ∧ Inv w' (l ++ ps.map fun p => netName p.2) := by
  induction ps generalizing w l d with
  | nil => exact ⟨w, rfl, by simpa using h⟩
  | cons p ps ih =>
    obtain ⟨nm, o⟩ := p
    cases o with
    | none => exact absurd (hc _ List.mem_cons_self) (by simp)
    | some n =>
      obtain ⟨hi, hn⟩ := getId_inv w l h n
      obtain ⟨w', hw, hi'⟩ := ih _ _ hi (d.set ((toString nm).toList ++ '=' :: n.expanded) (w.getId n).2)
        fun p hp => hc p (List.mem_cons_of_mem _ hp)
      have e : l ++ ((nm, some n) :: ps).map (fun p => netName p.2) =
          l ++ [n.key] ++ ps.map fun p => netName p.2 := by simp [key_eq]
      refine ⟨w', ?_, by rw [e]; exact hi'⟩
      unfold conns
      simp only
      rw [hw, e, List.map_cons, List.foldl_cons]
      have : pinEntry (place (l ++ [n.key] ++ List.map (fun p => netName p.2) ps ++ more)) (nm, some n) =
          ((toString nm).toList ++ '=' :: n.expanded, (w.getId n).2) := by
        unfold pinEntry
        rw [← key_eq, hn, List.append_assoc (l ++ [n.key]), place_append _ _ _ (by simp)]
        rfl
      rw [this]

theorem subs_exact (ss : List Sub) (w : Writer) (l : List Str) (h : Inv w l) (d : Dict Str Cell)
    (hc : ∀ s ∈ ss, ∀ p ∈ s.pins, p.2.isSome) (more : List Str) :
    ∃ w', subs w d ss = .ok (w', (ss.map (subEntry (place (l ++ ss.flatMap (fun s => s.pins.map fun p => netName p.2) ++
      more)))).foldl (fun d kv => Dict.set d kv.1 kv.2) d) ∧
      Inv w' (l ++ ss.flatMap fun s => s.pins.map fun p => netName p.2) := by
  induction ss generalizing w l d with
  | nil => exact ⟨w, rfl, by simpa using h⟩
  | cons s ss ih =>
    obtain ⟨w1, h1, hi⟩ := conns_exact s.pins w l h [] (hc s List.mem_cons_self)
      (ss.flatMap (fun s => s.pins.map fun p => netName p.2) ++ more)
    obtain ⟨w', hw, hi'⟩ := ih _ _ hi (d.set (s.name ++ (toString s.cellIndex).toList) ⟨'$' :: s.name, _, []⟩)
      fun s hs => hc s (List.mem_cons_of_mem _ hs)
    have e : l ++ (s :: ss).flatMap (fun s => s.pins.map fun p => netName p.2) =
        l ++ s.pins.map (fun p => netName p.2) ++ ss.flatMap (fun s => s.pins.map fun p => netName p.2) := by
      rw [List.flatMap_cons, List.append_assoc]
    refine ⟨w', ?_, by rw [e]; exact hi'⟩
    unfold subs
    rw [h1]
    simp only
    rw [hw, e, List.map_cons, List.foldl_cons, List.append_assoc (l ++ s.pins.map fun p => netName p.2)]
    rfl

theorem devices_exact (ct rt : ℚ → Str) (ds : List Device) (w : Writer) (l : List Str) (h : Inv w l) (d : Dict Str Cell)
    (hc : ∀ d ∈ ds, d.kind ≠ .other ∧ d.a.isSome ∧ d.b.isSome) (more : List Str) :
    ∃ w', devices ct rt w d ds = .ok (w', (ds.map (deviceEntry ct rt (place (l ++
      ds.flatMap (fun d => [netName d.a, netName d.b]) ++ more)))).foldl (fun d kv => Dict.set d kv.1 kv.2) d) ∧
      Inv w' (l ++ ds.flatMap fun d => [netName d.a, netName d.b]) := by
  induction ds generalizing w l d with
  | nil => exact ⟨w, rfl, by simpa using h⟩
  | cons x xs ih =>
    obtain ⟨hk, ha, hb⟩ := hc x List.mem_cons_self
    obtain ⟨k, nm, oa, ob, v⟩ := x
    obtain ⟨a, rfl⟩ := Option.isSome_iff_exists.1 ha
    obtain ⟨b, rfl⟩ := Option.isSome_iff_exists.1 hb
    obtain ⟨hi, hn⟩ := getId_inv w l h a
    obtain ⟨hi2, hn2⟩ := getId_inv _ _ hi b
    have e : l ++ ((⟨k, nm, some a, some b, v⟩ : Device) :: xs).flatMap (fun d => [netName d.a, netName d.b]) =
        l ++ [a.key] ++ [b.key] ++ xs.flatMap (fun d => [netName d.a, netName d.b]) := by
      rw [List.flatMap_cons]
      simp [key_eq]
    have pa : place (l ++ [a.key] ++ [b.key] ++ xs.flatMap (fun d => [netName d.a, netName d.b]) ++ more) (netName (some a)) =
        (w.getId a).2 := by
      rw [← key_eq, hn, List.append_assoc, List.append_assoc (l ++ [a.key]), place_append _ _ _ (by simp)]
    have pb : place (l ++ [a.key] ++ [b.key] ++ xs.flatMap (fun d => [netName d.a, netName d.b]) ++ more) (netName (some b)) =
        ((w.getId a).1.getId b).2 := by
      rw [← key_eq, hn2, List.append_assoc, place_append _ _ _ (by simp)]
    have hab : ∀ i j : Nat, Dict.ofList [("A".toList, i), ("B".toList, j)] = [("A".toList, i), ("B".toList, j)] := by
      intro i j; rfl
    cases k with
    | other => exact absurd rfl hk
    | cap =>
      obtain ⟨w', hw, hi'⟩ := ih _ _ hi2 (d.set ('C' :: nm) ⟨"c_v".toList,
        Dict.ofList [("A".toList, (w.getId a).2), ("B".toList, ((w.getId a).1.getId b).2)],
        ct (v * 10 ^ 15) ++ "f".toList⟩) fun p hp => hc p (List.mem_cons_of_mem _ hp)
      refine ⟨w', ?_, by rw [e]; exact hi'⟩
      unfold devices
      simp only
      rw [hw, e, List.map_cons, List.foldl_cons]
      have : deviceEntry ct rt (place (l ++ [a.key] ++ [b.key] ++ xs.flatMap (fun d => [netName d.a, netName d.b]) ++ more))
          ⟨.cap, nm, some a, some b, v⟩ = ('C' :: nm, ⟨"c_v".toList,
        Dict.ofList [("A".toList, (w.getId a).2), ("B".toList, ((w.getId a).1.getId b).2)],
        ct (v * 10 ^ 15) ++ "f".toList⟩) := by
        unfold deviceEntry
        rw [pa, pb, hab]
        simp only [if_true]
      rw [this]
    | res =>
      obtain ⟨w', hw, hi'⟩ := ih _ _ hi2 (d.set ('R' :: nm) ⟨"r_v".toList,
        Dict.ofList [("A".toList, (w.getId a).2), ("B".toList, ((w.getId a).1.getId b).2)],
        rt v⟩) fun p hp => hc p (List.mem_cons_of_mem _ hp)
      refine ⟨w', ?_, by rw [e]; exact hi'⟩
      unfold devices
      simp only
      rw [hw, e, List.map_cons, List.foldl_cons]
      have : deviceEntry ct rt (place (l ++ [a.key] ++ [b.key] ++ xs.flatMap (fun d => [netName d.a, netName d.b]) ++ more))
          ⟨.res, nm, some a, some b, v⟩ = ('R' :: nm, ⟨"r_v".toList,
        Dict.ofList [("A".toList, (w.getId a).2), ("B".toList, ((w.getId a).1.getId b).2)],
        rt v⟩) := by
        unfold deviceEntry
        rw [pa, pb, hab]
        simp only [reduceCtorEq, if_false]
      rw [this]

theorem grounds_exact (w : Writer) (l : List Str) (h : Inv w l) (d : Dict Str Cell) :
    grounds w 0 d ["VSUBS".toList, "GND".toList] =
      (groundEntries (place l) l).foldl (fun d kv => Dict.set d kv.1 kv.2) d := by
  unfold grounds groundEntries
  rw [h.2]
  by_cases hv : "VSUBS".toList ∈ l
  · rw [if_pos hv, if_pos hv]
    simp only
    unfold grounds
    rw [h.2]
    by_cases hg : "GND".toList ∈ l
    · rw [if_pos hg, if_pos hg]; rfl
    · rw [if_neg hg, if_neg hg]; rfl
  · rw [if_neg hv, if_neg hv]
    simp only
    unfold grounds
    rw [h.2]
    by_cases hg : "GND".toList ∈ l
    · rw [if_pos hg, if_pos hg]; rfl
    · rw [if_neg hg, if_neg hg]; rfl

/-! ### C47 -/

/-- **C47.** For every drawable circuit the document is written, with one number per net name, the numbers being dense
from 0: each port and each connection of a cell carries the number of its net.  (Entries with the same key: the last one
counts.) -/
theorem json_exact (capText resText : ℚ → Str) (c : Circuit) (hc : Drawable c) :
    ∃ num j, Numbering num (netNames c) ∧ netlistJson capText resText c = .ok j ∧
      j.ports = Dict.ofList (c.pins.map (portEntry num)) ∧
      j.cells = Dict.ofList (c.subs.map (subEntry num) ++ c.devices.map (deviceEntry capText resText num) ++
        groundEntries num (netNames c)) := by
  obtain ⟨h1, h2, h3⟩ := hc
  obtain ⟨w1, e1, i1⟩ := ports_exact c.pins {} [] inv_nil [] h1
    (c.subs.flatMap (fun s => s.pins.map fun p => netName p.2) ++ c.devices.flatMap (fun d => [netName d.a, netName d.b]))
  obtain ⟨w2, e2, i2⟩ := subs_exact c.subs w1 _ i1 [] h2 (c.devices.flatMap (fun d => [netName d.a, netName d.b]))
  obtain ⟨w3, e3, i3⟩ := devices_exact capText resText c.devices w2 _ i2
    (((c.subs.map (subEntry (place (netNames c)))).foldl (fun d kv => Dict.set d kv.1 kv.2) [])) h3 []
  have n1 : [] ++ c.pins.map (fun p => netName p.net) ++
      (c.subs.flatMap (fun s => s.pins.map fun p => netName p.2) ++ c.devices.flatMap (fun d => [netName d.a, netName d.b])) =
      netNames c := by unfold netNames; simp
  have n2 : [] ++ c.pins.map (fun p => netName p.net) ++ c.subs.flatMap (fun s => s.pins.map fun p => netName p.2) ++
      c.devices.flatMap (fun d => [netName d.a, netName d.b]) = netNames c := by unfold netNames; simp
  have n3 : [] ++ c.pins.map (fun p => netName p.net) ++ c.subs.flatMap (fun s => s.pins.map fun p => netName p.2) ++
      c.devices.flatMap (fun d => [netName d.a, netName d.b]) ++ [] = netNames c := by unfold netNames; simp
  rw [n1] at e1
  rw [n2] at e2
  rw [n3] at e3
  rw [n2] at i3
  refine ⟨place (netNames c), ⟨(c.pins.map (portEntry (place (netNames c)))).foldl (fun d kv => Dict.set d kv.1 kv.2) [],
    (groundEntries (place (netNames c)) (netNames c)).foldl (fun d kv => Dict.set d kv.1 kv.2)
      ((c.devices.map (deviceEntry capText resText (place (netNames c)))).foldl (fun d kv => Dict.set d kv.1 kv.2)
        ((c.subs.map (subEntry (place (netNames c)))).foldl (fun d kv => Dict.set d kv.1 kv.2) []))⟩,
    place_numbering _, ?_, rfl, ?_⟩
  · unfold netlistJson
    rw [e1]
    simp only
    rw [e2]
    simp only
    rw [e3]
    simp only
    rw [grounds_exact w3 _ i3]
  · unfold Dict.ofList
    rw [List.foldl_append, List.foldl_append]

/-- A document is written for drawable circuits only. -/
theorem json_only_drawable (capText resText : ℚ → Str) (c : Circuit) (j : Json)
    (h : netlistJson capText resText c = .ok j) : Drawable c := by
  have hp : ∀ ps w d r, ports w d ps = .ok r → ∀ p ∈ ps, p.net.isSome := by
    intro ps
    induction ps with
    | nil => intro _ _ _ _ p hp; cases hp
    | cons q ps ih =>
      intro w d r h p hp
      unfold ports at h
      cases hq : q.net with
      | none => rw [hq] at h; cases h
      | some n =>
        rw [hq] at h
        rcases List.mem_cons.1 hp with rfl | hp
        · rw [hq]; rfl
        · exact ih _ _ _ h p hp
  have hcn : ∀ ps w d r, conns w d ps = .ok r → ∀ p ∈ ps, p.2.isSome := by
    intro ps
    induction ps with
    | nil => intro _ _ _ _ p hp; cases hp
    | cons q ps ih =>
      intro w d r h p hp
      unfold conns at h
      cases hq : q.2 with
      | none => rw [hq] at h; cases h
      | some n =>
        rw [hq] at h
        rcases List.mem_cons.1 hp with rfl | hp
        · rw [hq]; rfl
        · exact ih _ _ _ h p hp
  have hs : ∀ ss w d r, subs w d ss = .ok r → ∀ s ∈ ss, ∀ p ∈ s.pins, p.2.isSome := by
    intro ss
    induction ss with
    | nil => intro _ _ _ _ s hs; cases hs
    | cons q ss ih =>
      intro w d r h s hs
      unfold subs at h
      cases hq : conns w [] q.pins with
      | error m => rw [hq] at h; cases h
      | ok v =>
        obtain ⟨w', c'⟩ := v
        rw [hq] at h
        rcases List.mem_cons.1 hs with rfl | hs
        · exact hcn _ _ _ _ hq
        · exact ih _ _ _ h s hs
  have hd : ∀ ds w d r, devices capText resText w d ds = .ok r →
      ∀ x ∈ ds, x.kind ≠ .other ∧ x.a.isSome ∧ x.b.isSome := by
    intro ds
    induction ds with
    | nil => intro _ _ _ _ x hx; cases hx
    | cons q ds ih =>
      intro w d r h x hx
      obtain ⟨k, nm, a, b, v⟩ := q
      unfold devices at h
      cases k <;> cases a <;> cases b <;> first
        | (cases h)
        | (simp only at h
           rcases List.mem_cons.1 hx with rfl | hx
           · exact ⟨by simp, rfl, rfl⟩
           · exact ih _ _ _ h x hx)
  unfold netlistJson at h
  cases h1 : ports {} [] c.pins with
  | error m => rw [h1] at h; cases h
  | ok r1 =>
    rw [h1] at h
    obtain ⟨w1, p⟩ := r1
    simp only at h
    cases h2 : subs w1 [] c.subs with
    | error m => rw [h2] at h; cases h
    | ok r2 =>
      rw [h2] at h
      obtain ⟨w2, d2⟩ := r2
      simp only at h
      cases h3 : devices capText resText w2 d2 c.devices with
      | error m => rw [h3] at h; cases h
      | ok r3 => exact ⟨hp _ _ _ _ h1, hs _ _ _ _ h2, hd _ _ _ _ h3⟩

/-- **C47, two instances of one circuit.** The key of a cell is the circuit's name and cell index: of two instances of the
same circuit only the last one is in the document. -/
theorem instance_lost (capText resText : ℚ → Str) (pins : List Pin) (a b : Sub) (hn : a.name = b.name)
    (hi : a.cellIndex = b.cellIndex) (hc : Drawable ⟨pins, [a, b], []⟩)
    (hg : "VSUBS".toList ∉ netNames ⟨pins, [a, b], []⟩ ∧ "GND".toList ∉ netNames ⟨pins, [a, b], []⟩) :
    ∃ num j, Numbering num (netNames ⟨pins, [a, b], []⟩) ∧ netlistJson capText resText ⟨pins, [a, b], []⟩ = .ok j ∧
      j.cells = [subEntry num b] := by
  obtain ⟨num, j, h1, h2, _, h4⟩ := json_exact capText resText _ hc
  refine ⟨num, j, h1, h2, ?_⟩
  rw [h4]
  unfold groundEntries
  rw [if_neg hg.1, if_neg hg.2]
  unfold Dict.ofList
  simp only [List.map_cons, List.map_nil, List.append_nil, List.foldl_cons, List.foldl_nil]
  unfold subEntry
  rw [hn, hi]
  simp [Dict.set]

theorem ofList_nodup {κ ν : Type} [DecidableEq κ] (l : List (κ × ν)) (h : (l.map Prod.fst).Nodup) : Dict.ofList l = l := by
  have hset : ∀ (d : Dict κ ν) (k : κ) (v : ν), k ∉ d.map Prod.fst → Dict.set d k v = d ++ [(k, v)] := by
    intro d
    induction d with
    | nil => intro k v _; rfl
    | cons p d ih =>
      intro k v hk
      rw [List.map_cons, List.mem_cons] at hk
      push Not at hk
      unfold Dict.set
      rw [if_neg (fun e => hk.1 e.symm), ih k v hk.2]
      rfl
  induction l using List.reverseRecOn with
  | nil => rfl
  | append_singleton l x ih =>
    rw [List.map_append, List.nodup_append] at h
    rw [Dict.ofList_snoc, ih h.1]
    exact hset l x.1 x.2 fun hm => h.2.2 _ hm x.1 (by simp) rfl

/-- The number is used in the document. -/
def Used (j : Json) (i : Nat) : Prop :=
  (∃ n, (n, i) ∈ j.ports) ∨ ∃ key cell n, (key, cell) ∈ j.cells ∧ (n, i) ∈ cell.connections

/-- The keys of the subcircuits and devices. -/
def cellKeys (c : Circuit) : List Str :=
  c.subs.map (fun s => s.name ++ (toString s.cellIndex).toList) ++
    c.devices.map fun d => if d.kind = .cap then 'C' :: d.name else 'R' :: d.name

/-- **C47, dense (partial).** If pin names, pin ids and cell keys are unique (and differ from the ground symbols'), the
numbers that occur in the document are exactly 0, 1, … up to the number of nets. -/
theorem dense_partial (capText resText : ℚ → Str) (c : Circuit) (hc : Drawable c) (hp : (c.pins.map Pin.name).Nodup)
    (hs : ∀ s ∈ c.subs, (s.pins.map Prod.fst).Nodup) (hk : (cellKeys c).Nodup)
    (hg : "gnd".toList ∉ cellKeys c ∧ "gnd1".toList ∉ cellKeys c) :
    ∃ j k, netlistJson capText resText c = .ok j ∧ ∀ i, i < k ↔ Used j i := by
  obtain ⟨num, j, ⟨_, k, hnum⟩, h2, h3, h4⟩ := json_exact capText resText c hc
  refine ⟨j, k, h2, fun i => ?_⟩
  have e3 : j.ports = c.pins.map (portEntry num) := by
    rw [h3]; refine ofList_nodup _ ?_
    rw [List.map_map]; exact hp
  have hks : (c.subs.map (subEntry num) ++ c.devices.map (deviceEntry capText resText num)).map Prod.fst = cellKeys c := by
    rw [List.map_append, List.map_map, List.map_map]; rfl
  have e4 : j.cells = c.subs.map (subEntry num) ++ c.devices.map (deviceEntry capText resText num) ++
        groundEntries num (netNames c) := by
    rw [h4]; refine ofList_nodup _ ?_
    rw [List.map_append, hks, List.nodup_append]
    refine ⟨hk, ?_, ?_⟩
    · unfold groundEntries
      split
      · split
        · show ["gnd".toList, "gnd1".toList].Nodup
          decide
        · simp
      · split
        · simp
        · simp
    · intro a ha b hb e
      subst e
      unfold groundEntries at hb
      split at hb
      · split at hb
        · simp only [List.map_cons, List.map_nil, List.mem_cons, List.not_mem_nil, or_false] at hb
          rcases hb with rfl | rfl
          · exact hg.1 ha
          · exact hg.2 ha
        · simp only [List.map_cons, List.map_nil, List.mem_cons, List.not_mem_nil, or_false] at hb
          subst hb; exact hg.1 ha
      · split at hb
        · simp only [List.map_cons, List.map_nil, List.mem_cons, List.not_mem_nil, or_false] at hb
          subst hb; exact hg.1 ha
        · simp at hb
  have ep : ∀ s ∈ c.subs, Dict.ofList (s.pins.map (pinEntry num)) = s.pins.map (pinEntry num) := by
    intro s hs'
    refine ofList_nodup _ ?_
    rw [List.map_map]
    refine List.Nodup.of_map (fun t : Str => t) ?_
    rw [List.map_map]
    refine List.pairwise_map.2 ?_
    refine (List.pairwise_map.1 (hs s hs')).imp ?_
    intro a b hab e
    exact hab (dec_sep_inj (by decide) e).1
  rw [hnum]
  unfold Used
  rw [e3, e4]
  constructor
  · rintro ⟨n, hn, rfl⟩
    unfold netNames at hn
    rw [List.mem_append, List.mem_append] at hn
    rcases hn with (hn | hn) | hn
    · obtain ⟨p, hp, rfl⟩ := List.mem_map.1 hn
      exact .inl ⟨p.name, List.mem_map.2 ⟨p, hp, rfl⟩⟩
    · obtain ⟨s, hs', hn⟩ := List.mem_flatMap.1 hn
      obtain ⟨p, hp, rfl⟩ := List.mem_map.1 hn
      refine .inr ⟨(subEntry num s).1, (subEntry num s).2, (pinEntry num p).1, ?_, ?_⟩
      · rw [List.mem_append, List.mem_append]
        exact .inl (.inl (List.mem_map.2 ⟨s, hs', rfl⟩))
      · show (_, _) ∈ Dict.ofList (s.pins.map (pinEntry num))
        rw [ep s hs']
        exact List.mem_map.2 ⟨p, hp, rfl⟩
    · obtain ⟨d, hd, hn⟩ := List.mem_flatMap.1 hn
      refine .inr ⟨(deviceEntry capText resText num d).1, (deviceEntry capText resText num d).2,
        if n = netName d.a then "A".toList else "B".toList, ?_, ?_⟩
      · rw [List.mem_append, List.mem_append]
        exact .inl (.inr (List.mem_map.2 ⟨d, hd, rfl⟩))
      · simp only [List.mem_cons, List.not_mem_nil, or_false] at hn
        show (_, _) ∈ [("A".toList, num (netName d.a)), ("B".toList, num (netName d.b))]
        by_cases h : n = netName d.a
        · rw [if_pos h, h]; exact List.mem_cons_self
        · rw [if_neg h, hn.resolve_left h]; exact List.mem_cons_of_mem _ List.mem_cons_self
  · rintro (⟨n, hn⟩ | ⟨key, cell, n, hcell, hn⟩)
    · obtain ⟨p, hp, e⟩ := List.mem_map.1 hn
      cases e
      exact ⟨netName p.net, by unfold netNames; simp only [List.mem_append, List.mem_map]; exact .inl (.inl ⟨p, hp, rfl⟩), rfl⟩
    · rw [List.mem_append, List.mem_append] at hcell
      rcases hcell with (hcell | hcell) | hcell
      · obtain ⟨s, hs', e⟩ := List.mem_map.1 hcell
        cases e
        change (n, i) ∈ Dict.ofList (s.pins.map (pinEntry num)) at hn
        rw [ep s hs'] at hn
        obtain ⟨p, hp, e⟩ := List.mem_map.1 hn
        cases e
        refine ⟨netName p.2, ?_, rfl⟩
        unfold netNames
        rw [List.mem_append, List.mem_append]
        exact .inl (.inr (List.mem_flatMap.2 ⟨s, hs', List.mem_map.2 ⟨p, hp, rfl⟩⟩))
      · obtain ⟨d, hd, e⟩ := List.mem_map.1 hcell
        cases e
        change (n, i) ∈ [("A".toList, num (netName d.a)), ("B".toList, num (netName d.b))] at hn
        have hm : ∀ x ∈ [netName d.a, netName d.b], x ∈ netNames c := by
          intro x hx
          unfold netNames
          rw [List.mem_append]
          exact .inr (List.mem_flatMap.2 ⟨d, hd, hx⟩)
        simp only [List.mem_cons, List.not_mem_nil, or_false, Prod.mk.injEq] at hn
        rcases hn with ⟨_, rfl⟩ | ⟨_, rfl⟩
        · exact ⟨_, hm _ (by simp), rfl⟩
        · exact ⟨_, hm _ (by simp), rfl⟩
      · unfold groundEntries at hcell
        split at hcell
        · split at hcell
          · simp only [List.mem_cons, List.not_mem_nil, or_false, Prod.mk.injEq] at hcell
            rcases hcell with ⟨_, rfl⟩ | ⟨_, rfl⟩
            · simp only [List.mem_cons, List.not_mem_nil, or_false, Prod.mk.injEq] at hn
              exact ⟨_, ‹_›, hn.2.symm⟩
            · simp only [List.mem_cons, List.not_mem_nil, or_false, Prod.mk.injEq] at hn
              exact ⟨_, ‹_›, hn.2.symm⟩
          · simp only [List.mem_cons, List.not_mem_nil, or_false, Prod.mk.injEq] at hcell
            rcases hcell with ⟨_, rfl⟩
            simp only [List.mem_cons, List.not_mem_nil, or_false, Prod.mk.injEq] at hn
            exact ⟨_, ‹_›, hn.2.symm⟩
        · split at hcell
          · simp only [List.mem_cons, List.not_mem_nil, or_false, Prod.mk.injEq] at hcell
            rcases hcell with ⟨_, rfl⟩
            simp only [List.mem_cons, List.not_mem_nil, or_false, Prod.mk.injEq] at hn
            exact ⟨_, ‹_›, hn.2.symm⟩
          · cases hcell

def netA : Net := ⟨"A".toList, "A".toList⟩
def netG : Net := ⟨"GND".toList, "GND".toList⟩
def netN : Net := ⟨"$3".toList, []⟩

def sample : Circuit :=
  ⟨[⟨"A".toList, some netA⟩, ⟨"G".toList, some netG⟩],
   [⟨"INV".toList, 2, [(0, some netN), (1, some netA)]⟩, ⟨"INV".toList, 2, [(0, some netA), (1, some netN)]⟩],
   [⟨.cap, "1".toList, some netN, some netG, 1⟩]⟩

example : Drawable sample := by
  refine ⟨?_, ?_, ?_⟩ <;> unfold sample <;> decide

def sample' : Circuit := ⟨sample.pins, sample.subs.take 1, sample.devices⟩

example : Drawable sample' ∧ (sample'.pins.map Pin.name).Nodup ∧ (∀ s ∈ sample'.subs, (s.pins.map Prod.fst).Nodup) ∧
    (cellKeys sample').Nodup ∧ "gnd".toList ∉ cellKeys sample' ∧ "gnd1".toList ∉ cellKeys sample' := by
  refine ⟨⟨?_, ?_, ?_⟩, ?_, ?_, ?_, ?_, ?_⟩ <;> unfold sample' sample <;> decide

example : (netlistJson (fun _ => "1".toList) (fun _ => "2".toList) sample).toOption.map (fun j => (j.ports, j.cells)) =
    some ([("A".toList, 0), ("G".toList, 1)],
      [("INV2".toList, ⟨"$INV".toList, [("0=A".toList, 0), ("1=$3".toList, 2)], []⟩),
       ("C1".toList, ⟨"c_v".toList, [("A".toList, 2), ("B".toList, 1)], "1f".toList⟩),
       ("gnd".toList, ⟨"gnd".toList, [("A".toList, 1)], "GND".toList⟩)]) := by
  decide +kernel

example : Drawable ⟨[], sample.subs, []⟩ ∧ "VSUBS".toList ∉ netNames ⟨[], sample.subs, []⟩ ∧
    "GND".toList ∉ netNames ⟨[], sample.subs, []⟩ := by
  refine ⟨⟨?_, ?_, ?_⟩, ?_, ?_⟩ <;> unfold sample <;> decide

end Verif.NetJson
