import Verif.ListFile.Model
import Verif.Common.Firsts
import Verif.Common.Text
import Mathlib.Data.List.Forall2

/-!
# Properties of the list file

* C20 `conductors_read`, `dielectrics_read`, `write_succeeds`.
* C21 `names_distinct`, `names_no_slash_partial`, `names_short_partial`; `names_fail_slash`, `names_fail_material`,
  `names_fail_bytes`.
-/

namespace Verif.ListFile

open Verif.Finalize (HDielKey HCondKey)

variable {T : Type}

/-! ### Specification: how a solver reads the files -/

/-- Conductors of a list file: conductor lines are collected as long as they end in `+`; `none` if a group is left open
at another line or at the end of the file. -/
def readGroups : List (Str × ℚ) → List Line → Option (List (List (Str × ℚ)))
  | acc, [] => if acc = [] then some [] else none
  | acc, .cond fn k true :: ls => readGroups (acc ++ [(fn, k)]) ls
  | acc, .cond fn k false :: ls => (readGroups [] ls).map ((acc ++ [(fn, k)]) :: ·)
  | acc, _ :: ls => if acc = [] then readGroups [] ls else none

/-- Content of a file: the last one written under that name. -/
def lookup (files : List (Str × Geo T)) (fn : Str) : Option (Geo T) :=
  (files.reverse.find? (fun f => decide (f.1 = fn))).map Prod.snd

/-- The nets with at least one triangle, in order of appearance. -/
def netsOf (cond : Dict HCondKey (List T)) : List String :=
  firsts ((cond.filter (fun kv => !kv.2.isEmpty)).map (fun kv => kv.1.netName))

/-- The non-empty surfaces of a net: outside material and triangles. -/
def surfaces (cond : Dict HCondKey (List T)) (n : String) : List (Option String × List T) :=
  ((cond.filter (fun kv => !kv.2.isEmpty)).filter (fun kv => decide (kv.1.netName = n))).map (fun kv => (kv.1.outside, kv.2))

/-- Is the material declared (or the void)? -/
def Known (c : Cfg) (m : Option String) : Prop := ∀ x, m = some x → x ≠ "" → x ∈ c.materials.keys

/-- Permittivity of a material. -/
def permittivity (c : Cfg) (m : Option String) : ℚ :=
  match m with
  | none => c.kVoid
  | some x => if x = "" then c.kVoid else c.materials.getD x 0

/-- What the files of a conductor must contain: all with the number of the conductor, one per surface with its triangles,
and the name in the last one only. -/
def conductorFiles (c : Cfg) (number : Nat) (n : String) : List (Option String × List T) → List (ℚ × Geo T)
  | [] => []
  | [x] => [(permittivity c x.1, { number := number, tris := x.2, rename := if n = "" then none else some n.toList })]
  | x :: y :: r => (permittivity c x.1, { number := number, tris := x.2, rename := none }) :: conductorFiles c number n (y :: r)

/-! ### Lemmas: what is written -/

/-- A record of a conductor surface. -/
structure CRec (T : Type) where
  num : Nat
  condNum : Nat
  net : String
  outside : Option String
  tris : List T
  last : Bool

def surfRecs (condNum : Nat) (nn : String) : Nat → List (Option String × List T) → List (CRec T)
  | _, [] => []
  | f, x :: r => ⟨f + 1, condNum, nn, x.1, x.2, r.isEmpty⟩ :: surfRecs condNum nn (f + 1) r

def netRecs : Nat → Nat → List (String × List (Option String × List T)) → List (CRec T)
  | _, _, [] => []
  | f, n, (nn, ss) :: r => surfRecs (n + 1) nn f ss ++ netRecs (f + ss.length) (n + 1) r

def dielRecs : Nat → List (HDielKey × List T) → List (Nat × HDielKey × List T)
  | _, [] => []
  | f, (k, v) :: r => if v.isEmpty then dielRecs f r else (f + 1, k, v) :: dielRecs (f + 1) r

def CRec.name (c : Cfg) (r : CRec T) : Str := condName c r.num r.outside r.net.toList
def CRec.line (c : Cfg) (r : CRec T) : Line := .cond (r.name c) (permittivity c r.outside) (!r.last)
def CRec.file (c : Cfg) (r : CRec T) : Str × Geo T := (r.name c, geo r.tris r.condNum (some r.net.toList) r.last)
def dLine (c : Cfg) (r : Nat × HDielKey × List T) : Line :=
  .diel (dielName c r.1 r.2.1) (permittivity c r.2.1.outside) (permittivity c r.2.1.inside)
def dFile (c : Cfg) (r : Nat × HDielKey × List T) : Str × Geo T := (dielName c r.1 r.2.1, geo r.2.2 r.1 none false)

theorem perm_ok {c : Cfg} {m : Option String} {k : ℚ} (h : c.perm m = .ok k) : k = permittivity c m ∧ Known c m := by
  unfold Cfg.perm at h
  unfold permittivity Known
  cases m with
  | none => simp only [Except.ok.injEq] at h; exact ⟨h.symm, by simp⟩
  | some x =>
    by_cases hx : x = ""
    · simp only [hx, if_true, Except.ok.injEq] at h
      refine ⟨by simp [hx, h], ?_⟩
      intro y hy hne
      simp only [Option.some.injEq] at hy
      exact absurd (hy ▸ hx) hne
    · simp only [hx, if_false] at h
      cases hg : c.materials.get? x with
      | none => rw [hg] at h; cases h
      | some k' =>
        rw [hg] at h
        simp only [Except.ok.injEq] at h
        refine ⟨by simp [hx, Dict.getD, hg, h], ?_⟩
        intro y hy _
        simp only [Option.some.injEq] at hy
        subst hy
        rw [Dict.mem_keys_iff, hg]; rfl

theorem perm_known {c : Cfg} {m : Option String} (h : Known c m) : c.perm m = .ok (permittivity c m) := by
  unfold Cfg.perm permittivity
  cases m with
  | none => rfl
  | some x =>
    by_cases hx : x = ""
    · simp [hx]
    · simp only [hx, if_false]
      have := h x rfl hx
      rw [Dict.mem_keys_iff] at this
      cases hg : c.materials.get? x with
      | none => rw [hg] at this; cases this
      | some k => simp [Dict.getD, hg]

theorem surf_fold (c : Cfg) (condNum last : Nat) (nn : String) (ss : List (Option String × List T)) :
    ∀ (j : Nat) (s : Out T), (ss ≠ [] → last + 1 = j + ss.length) → (∀ x ∈ ss, Known c x.1) →
    (ss.zipIdx j).foldlM (surfStep c condNum last nn) s = .ok
      { fileNum := s.fileNum + ss.length
        lst := s.lst ++ (surfRecs condNum nn s.fileNum ss).map (CRec.line c)
        files := s.files ++ (surfRecs condNum nn s.fileNum ss).map (CRec.file c) } := by
  induction ss with
  | nil => intro j s _ _; simp [surfRecs]; rfl
  | cons x ss ih =>
    intro j s hl hk
    have hl' := hl (by simp)
    simp only [List.length_cons] at hl'
    rw [List.zipIdx_cons, List.foldlM_cons]
    have e : (j == last) = ss.isEmpty := by
      cases ss with
      | nil => simp at hl' ⊢; omega
      | cons y r => simp at hl' ⊢; omega
    have h1 : surfStep c condNum last nn s (x, j) = .ok
        { fileNum := s.fileNum + 1
          lst := s.lst ++ [.cond (condName c (s.fileNum + 1) x.1 nn.toList) (permittivity c x.1) (!ss.isEmpty)]
          files := s.files ++ [(condName c (s.fileNum + 1) x.1 nn.toList, geo x.2 condNum (some nn.toList) ss.isEmpty)] } := by
      simp only [surfStep, perm_known (hk x (by simp)), e]; rfl
    rw [h1]
    have := ih (j + 1) { fileNum := s.fileNum + 1
                         lst := s.lst ++ [.cond (condName c (s.fileNum + 1) x.1 nn.toList) (permittivity c x.1) (!ss.isEmpty)]
                         files := s.files ++ [(condName c (s.fileNum + 1) x.1 nn.toList, geo x.2 condNum (some nn.toList) ss.isEmpty)] }
      (fun _ => by omega) (fun y hy => hk y (by simp [hy]))
    refine Eq.trans this ?_
    simp only [List.append_assoc, List.singleton_append, surfRecs, List.map_cons, CRec.line, CRec.file, CRec.name,
      List.length_cons]
    congr 2
    omega

theorem net_fold (c : Cfg) (ns : List (String × List (Option String × List T))) :
    ∀ (s : Out T) (n : Nat), (∀ e ∈ ns, e.2 ≠ []) → (∀ e ∈ ns, ∀ x ∈ e.2, Known c x.1) →
    ns.foldlM (netStep c) (s, n) = .ok
      ({ fileNum := s.fileNum + (ns.map (fun e => e.2.length)).sum
         lst := s.lst ++ (netRecs s.fileNum n ns).map (CRec.line c)
         files := s.files ++ (netRecs s.fileNum n ns).map (CRec.file c) }, n + ns.length) := by
  induction ns with
  | nil => intro s n _ _; simp [netRecs]; rfl
  | cons e ns ih =>
    intro s n hne hk
    obtain ⟨nn, ss⟩ := e
    have hs : ss ≠ [] := hne (nn, ss) (by simp)
    have hs' : 0 < ss.length := List.length_pos_iff.2 hs
    have h1 : netStep c (s, n) (nn, ss) = .ok
        ({ fileNum := s.fileNum + ss.length
           lst := s.lst ++ (surfRecs (n + 1) nn s.fileNum ss).map (CRec.line c)
           files := s.files ++ (surfRecs (n + 1) nn s.fileNum ss).map (CRec.file c) }, n + 1) := by
      have := surf_fold c (n + 1) (ss.length - 1) nn ss 0 s (fun _ => by omega) (hk (nn, ss) (by simp))
      simp only [netStep, this]; rfl
    rw [List.foldlM_cons, h1]
    refine Eq.trans (ih _ (n + 1) (fun e he => hne e (by simp [he])) (fun e he => hk e (by simp [he]))) ?_
    simp only [List.append_assoc, netRecs, List.map_append, List.map_cons, List.sum_cons, List.length_cons]
    congr 2
    · congr 1; omega
    · omega

theorem diel_fold (c : Cfg) (ds : List (HDielKey × List T)) : ∀ (s : Out T),
    (∀ e ∈ ds, e.2 ≠ [] → Known c e.1.outside ∧ Known c e.1.inside) →
    ds.foldlM (dielStep c) s = .ok
      { fileNum := s.fileNum + (dielRecs s.fileNum ds).length
        lst := s.lst ++ (dielRecs s.fileNum ds).map (dLine c)
        files := s.files ++ (dielRecs s.fileNum ds).map (dFile c) } := by
  induction ds with
  | nil => intro s _; simp [dielRecs]; rfl
  | cons e ds ih =>
    intro s hk
    obtain ⟨k, v⟩ := e
    rw [List.foldlM_cons]
    cases v with
    | nil =>
      have h1 : dielStep c s (k, []) = .ok s := rfl
      rw [h1]
      refine Eq.trans (ih s (fun e he => hk e (by simp [he]))) ?_
      simp [dielRecs]
    | cons t v =>
      obtain ⟨k1, k2⟩ := hk (k, t :: v) (by simp) (by simp)
      have h1 : dielStep c s (k, t :: v) = .ok
          { fileNum := s.fileNum + 1
            files := s.files ++ [(dielName c (s.fileNum + 1) k, geo (t :: v) (s.fileNum + 1) none false)]
            lst := s.lst ++ [.diel (dielName c (s.fileNum + 1) k) (permittivity c k.outside) (permittivity c k.inside)] } := by
        have : ¬ (t :: v).length = 0 := by simp
        simp only [dielStep, this, if_false, perm_known k1, perm_known k2]; rfl
      rw [h1]
      refine Eq.trans (ih _ (fun e he => hk e (by simp [he]))) ?_
      have : (t :: v).isEmpty = false := rfl
      simp only [dielRecs, this, List.append_assoc, List.map_cons, List.length_cons]
      simp only [Bool.false_eq_true, if_false, List.map_cons, List.length_cons, dLine, dFile, List.singleton_append]
      congr 2
      omega

theorem diel_fold_known (c : Cfg) (ds : List (HDielKey × List T)) : ∀ (s s' : Out T),
    ds.foldlM (dielStep c) s = .ok s' → ∀ e ∈ ds, e.2 ≠ [] → Known c e.1.outside ∧ Known c e.1.inside := by
  induction ds with
  | nil => intro s s' _ e he; simp at he
  | cons e0 ds ih =>
    intro s s' h e he hne
    rw [List.foldlM_cons] at h
    cases h1 : dielStep c s e0 with
    | error m => rw [h1] at h; cases h
    | ok s1 =>
      rw [h1] at h
      rcases List.mem_cons.1 he with rfl | he
      · have hl : ¬ e.2.length = 0 := by simpa using hne
        simp only [dielStep, hl, if_false] at h1
        cases hp : c.perm e.1.outside with
        | error m => rw [hp] at h1; cases h1
        | ok k1 =>
          cases hq : c.perm e.1.inside with
          | error m => rw [hp, hq] at h1; cases h1
          | ok k2 => exact ⟨(perm_ok hp).2, (perm_ok hq).2⟩
      · exact ih s1 s' h e he hne

theorem surf_fold_known (c : Cfg) (condNum last : Nat) (nn : String) (ss : List ((Option String × List T) × Nat)) :
    ∀ (s s' : Out T), ss.foldlM (surfStep c condNum last nn) s = .ok s' → ∀ x ∈ ss, Known c x.1.1 := by
  induction ss with
  | nil => intro s s' _ x hx; simp at hx
  | cons x0 ss ih =>
    intro s s' h x hx
    rw [List.foldlM_cons] at h
    cases h1 : surfStep c condNum last nn s x0 with
    | error m => rw [h1] at h; cases h
    | ok s1 =>
      rw [h1] at h
      rcases List.mem_cons.1 hx with rfl | hx
      · simp only [surfStep] at h1
        cases hp : c.perm x.1.1 with
        | error m => rw [hp] at h1; cases h1
        | ok k1 => exact (perm_ok hp).2
      · exact ih s1 s' h x hx

theorem net_fold_known (c : Cfg) (ns : List (String × List (Option String × List T))) :
    ∀ (s s' : Out T × Nat), ns.foldlM (netStep c) s = .ok s' → ∀ e ∈ ns, ∀ x ∈ e.2, Known c x.1 := by
  induction ns with
  | nil => intro s s' _ e he; simp at he
  | cons e0 ns ih =>
    intro s s' h e he x hx
    rw [List.foldlM_cons] at h
    cases h1 : netStep c s e0 with
    | error m => rw [h1] at h; cases h
    | ok s1 =>
      rw [h1] at h
      rcases List.mem_cons.1 he with rfl | he
      · simp only [netStep] at h1
        cases hp : e.2.zipIdx.foldlM (surfStep c (s.2 + 1) (e.2.length - 1) e.1) s.1 with
        | error m => rw [hp] at h1; cases h1
        | ok o =>
          obtain ⟨i, hi, rfl⟩ := List.mem_iff_getElem.1 hx
          have : (e.2[i], i) ∈ e.2.zipIdx := by
            rw [List.mem_zipIdx_iff_getElem?]
            simp [hi]
          exact surf_fold_known c _ _ _ _ _ _ hp _ this
      · exact ih s1 s' h e he x hx

theorem group_eq (cond : Dict HCondKey (List T)) :
    group cond = (netsOf cond).map (fun n => (n, surfaces cond n)) := by
  have h1 : group cond = groupBy (fun kv : HCondKey × List T => kv.1.netName) (fun kv => (kv.1.outside, kv.2))
      (cond.filter (fun kv => !kv.2.isEmpty)) := by
    rw [groupBy, List.foldl_filter, group]
    congr 1
    funext d kv
    by_cases h : kv.2.length = 0
    · have : kv.2.isEmpty = true := by simpa using h
      simp [h, this]
    · have : kv.2.isEmpty = false := by simpa using h
      rw [if_neg h, this]; rfl
  rw [h1, groupBy_eq]; rfl

/-- The complete output. -/
theorem write_eq {c : Cfg} {diel : Dict HDielKey (List T)} {cond : Dict HCondKey (List T)} {o : Out T}
    (h : write c diel cond = .ok o) :
    let D := dielRecs 0 diel
    let C := netRecs D.length D.length (group cond)
    o.lst = .void c.kVoid :: (D.map (dLine c) ++ C.map (CRec.line c)) ∧ o.files = D.map (dFile c) ++ C.map (CRec.file c) := by
  intro D C
  unfold write at h
  cases h1 : diel.foldlM (dielStep c) { lst := [.void c.kVoid] } with
  | error m => rw [h1] at h; cases h
  | ok s =>
    rw [h1] at h
    cases h2 : (group cond).foldlM (netStep c) (s, s.fileNum) with
    | error m => simp only [bind, Except.bind, h2] at h; cases h
    | ok r =>
      simp only [bind, Except.bind, h2, pure, Except.pure, Except.ok.injEq] at h
      have k1 := diel_fold_known c diel _ _ h1
      have k2 := net_fold_known c _ _ _ h2
      have hne : ∀ e ∈ group cond, e.2 ≠ [] := by
        intro e he
        rw [group_eq] at he
        obtain ⟨n, hn, rfl⟩ := List.mem_map.1 he
        rw [netsOf, mem_firsts, List.mem_map] at hn
        obtain ⟨kv, hkv, rfl⟩ := hn
        intro e
        have : (kv.1.outside, kv.2) ∈ surfaces cond kv.1.netName := by
          unfold surfaces
          exact List.mem_map.2 ⟨kv, List.mem_filter.2 ⟨hkv, by simp⟩, rfl⟩
        simp only [] at e
        rw [e] at this
        simp at this
      rw [diel_fold c diel _ k1] at h1
      simp only [Except.ok.injEq, Nat.zero_add, List.nil_append] at h1
      subst h1
      rw [net_fold c _ _ _ hne k2] at h2
      simp only [Except.ok.injEq] at h2
      subst h2
      subst h
      refine ⟨?_, ?_⟩
      · simp [D, C]
      · simp [D, C]

/-! ### C21: names -/

/-- The names written after file `f`: each consists of the prefix, its number, an underscore and more. -/
def Named (pre : Str) : Nat → List Str → Prop
  | _, [] => True
  | f, n :: ns => (∃ r, n = pre ++ (dec (f + 1) ++ '_' :: r)) ∧ Named pre (f + 1) ns

theorem named_append {pre : Str} : ∀ {f : Nat} {a b : List Str}, Named pre f a → Named pre (f + a.length) b →
    Named pre f (a ++ b)
  | _, [], _, _, h => by simpa using h
  | f, n :: ns, b, h, h' => by
    refine ⟨h.1, named_append h.2 ?_⟩
    have e : f + 1 + ns.length = f + (n :: ns).length := by simp; omega
    rw [e]; exact h'

theorem named_lt {pre : Str} : ∀ {f : Nat} {ns : List Str}, Named pre f ns → ∀ n ∈ ns,
    ∃ i r, f < i ∧ n = pre ++ (dec i ++ '_' :: r)
  | _, [], _, n, hn => by simp at hn
  | f, m :: ns, h, n, hn => by
    rcases List.mem_cons.1 hn with rfl | hn
    · obtain ⟨r, hr⟩ := h.1
      exact ⟨f + 1, r, by omega, hr⟩
    · obtain ⟨i, r, hi, hr⟩ := named_lt h.2 n hn
      exact ⟨i, r, by omega, hr⟩

theorem named_nodup {pre : Str} : ∀ {f : Nat} {ns : List Str}, Named pre f ns → ns.Nodup
  | _, [], _ => List.nodup_nil
  | f, n :: ns, h => by
    refine List.nodup_cons.2 ⟨?_, named_nodup h.2⟩
    intro hn
    obtain ⟨i, r, hi, hr⟩ := named_lt h.2 n hn
    obtain ⟨r', hr'⟩ := h.1
    rw [hr'] at hr
    have := dec_sep_inj (c := '_') (by decide) (List.append_cancel_left hr)
    omega

theorem condName_form (c : Cfg) (num : Nat) (o : Option String) (nn : Str) :
    ∃ r, condName c num o nn = c.pre ++ (dec num ++ '_' :: r) := by
  unfold condName
  have e : "_outside=".toList = '_' :: "outside=".toList := by decide
  rw [e]
  cases c.maxLen with
  | none => simp only [List.append_assoc, List.cons_append]; exact ⟨_, rfl⟩
  | some mx =>
    simp only []
    split
    · simp only [List.append_assoc, List.cons_append]; exact ⟨_, rfl⟩
    · simp only [List.append_assoc, List.cons_append]; exact ⟨_, rfl⟩

theorem dielName_form (c : Cfg) (num : Nat) (k : HDielKey) :
    ∃ r, dielName c num k = c.pre ++ (dec num ++ '_' :: r) := by
  unfold dielName
  have e : "_outside=".toList = '_' :: "outside=".toList := by decide
  rw [e]
  simp only [List.append_assoc, List.cons_append]; exact ⟨_, rfl⟩

theorem surfRecs_named (c : Cfg) (condNum : Nat) (nn : String) (ss : List (Option String × List T)) :
    ∀ f, Named c.pre f ((surfRecs condNum nn f ss).map (CRec.name c)) := by
  induction ss with
  | nil => intro f; trivial
  | cons x ss ih => intro f; exact ⟨condName_form c _ _ _, ih (f + 1)⟩

theorem surfRecs_length (condNum : Nat) (nn : String) (ss : List (Option String × List T)) :
    ∀ f, (surfRecs condNum nn f ss).length = ss.length := by
  induction ss with
  | nil => intro f; rfl
  | cons x ss ih => intro f; simp [surfRecs, ih]

theorem netRecs_named (c : Cfg) (ns : List (String × List (Option String × List T))) :
    ∀ f n, Named c.pre f ((netRecs f n ns).map (CRec.name c)) := by
  induction ns with
  | nil => intro f n; trivial
  | cons e ns ih =>
    intro f n
    simp only [netRecs, List.map_append]
    refine named_append (surfRecs_named c _ _ _ _) ?_
    rw [List.length_map, surfRecs_length]
    exact ih _ _

theorem dielRecs_named (c : Cfg) (ds : List (HDielKey × List T)) :
    ∀ f, Named c.pre f ((dielRecs f ds).map (fun r => dielName c r.1 r.2.1)) := by
  induction ds with
  | nil => intro f; trivial
  | cons e ds ih =>
    intro f
    simp only [dielRecs]
    split
    · exact ih f
    · exact ⟨dielName_form c _ _, ih (f + 1)⟩

/-- **C21.** No two geometry files of a model have the same name, whatever the names of nets and materials. -/
theorem names_distinct {c : Cfg} {diel : Dict HDielKey (List T)} {cond : Dict HCondKey (List T)} {o : Out T}
    (h : write c diel cond = .ok o) : (o.files.map Prod.fst).Nodup := by
  obtain ⟨_, h2⟩ := write_eq h
  rw [h2, List.map_append, List.map_map, List.map_map]
  apply named_nodup (pre := c.pre) (f := 0)
  refine named_append (dielRecs_named c diel 0) ?_
  rw [List.length_map, Nat.zero_add]
  exact netRecs_named c _ _ _

theorem sliceTo_sub (s : Str) (j : Int) : ∀ x ∈ sliceTo s j, x ∈ s := by
  intro x hx
  exact List.mem_of_mem_take hx

theorem orVoid_mem {m : Option String} {x : Char} (h : x ∈ orVoid m) :
    x ∈ "(void)".toList ∨ ∃ y, m = some y ∧ x ∈ y.toList := by
  unfold orVoid at h
  cases m with
  | none => exact Or.inl h
  | some y =>
    simp only [] at h
    split at h
    · exact Or.inl h
    · exact Or.inr ⟨y, rfl, h⟩

/-- Names a run deals with contain no slash. -/
structure NoSlash (c : Cfg) (diel : Dict HDielKey (List T)) (cond : Dict HCondKey (List T)) : Prop where
  pre : '/' ∉ c.pre
  digest : ∀ n, '/' ∉ c.digest n
  diel : ∀ e ∈ diel, ∀ x, e.1.outside = some x ∨ e.1.inside = some x → '/' ∉ x.toList
  cond : ∀ e ∈ cond, '/' ∉ e.1.netName.toList ∧ ∀ x, e.1.outside = some x → '/' ∉ x.toList

theorem dec_no_slash (n : Nat) : '/' ∉ dec n := by
  intro h
  have := dec_digits h
  revert this; decide

theorem surfRecs_mem {condNum f : Nat} {nn : String} {ss : List (Option String × List T)} {r : CRec T}
    (h : r ∈ surfRecs condNum nn f ss) : r.net = nn ∧ (r.outside, r.tris) ∈ ss := by
  induction ss generalizing f with
  | nil => simp [surfRecs] at h
  | cons x ss ih =>
    simp only [surfRecs, List.mem_cons] at h
    rcases h with rfl | h
    · exact ⟨rfl, by simp⟩
    · obtain ⟨h1, h2⟩ := ih h
      exact ⟨h1, by simp [h2]⟩

theorem netRecs_mem {f n : Nat} {ns : List (String × List (Option String × List T))} {r : CRec T}
    (h : r ∈ netRecs f n ns) : ∃ e ∈ ns, r.net = e.1 ∧ (r.outside, r.tris) ∈ e.2 := by
  induction ns generalizing f n with
  | nil => simp [netRecs] at h
  | cons e ns ih =>
    simp only [netRecs, List.mem_append] at h
    rcases h with h | h
    · exact ⟨e, by simp, surfRecs_mem h⟩
    · obtain ⟨e', he', h'⟩ := ih h
      exact ⟨e', by simp [he'], h'⟩

theorem dielRecs_mem {f : Nat} {ds : List (HDielKey × List T)} {r : Nat × HDielKey × List T} (h : r ∈ dielRecs f ds) :
    (r.2.1, r.2.2) ∈ ds := by
  induction ds generalizing f with
  | nil => simp [dielRecs] at h
  | cons e ds ih =>
    simp only [dielRecs] at h
    split at h
    · exact List.mem_cons_of_mem _ (ih h)
    · rcases List.mem_cons.1 h with rfl | h
      · simp
      · exact List.mem_cons_of_mem _ (ih h)

theorem group_mem {cond : Dict HCondKey (List T)} {e : String × List (Option String × List T)} (he : e ∈ group cond)
    {x : Option String × List T} (hx : x ∈ e.2) : ∃ kv ∈ cond, kv.1.netName = e.1 ∧ kv.1.outside = x.1 ∧ kv.2 = x.2 := by
  rw [group_eq] at he
  obtain ⟨n, hn, rfl⟩ := List.mem_map.1 he
  simp only [surfaces, List.mem_map, List.mem_filter] at hx
  obtain ⟨kv, ⟨⟨h1, _⟩, h2⟩, rfl⟩ := hx
  exact ⟨kv, h1, by simpa using h2, rfl, rfl⟩

/-- A file written is one of the records. -/
theorem file_cases {c : Cfg} {diel : Dict HDielKey (List T)} {cond : Dict HCondKey (List T)} {o : Out T}
    (h : write c diel cond = .ok o) {f : Str × Geo T} (hf : f ∈ o.files) :
    (∃ num, ∃ kv ∈ diel, f.1 = dielName c num kv.1) ∨
    (∃ num, ∃ kv ∈ cond, f.1 = condName c num kv.1.outside kv.1.netName.toList) := by
  obtain ⟨_, h2⟩ := write_eq h
  rw [h2] at hf
  rcases List.mem_append.1 hf with hf | hf
  · obtain ⟨r, hr, rfl⟩ := List.mem_map.1 hf
    exact Or.inl ⟨r.1, _, dielRecs_mem hr, rfl⟩
  · obtain ⟨r, hr, rfl⟩ := List.mem_map.1 hf
    obtain ⟨e, he, h3, h4⟩ := netRecs_mem hr
    obtain ⟨kv, h5, h6, h7, _⟩ := group_mem he h4
    refine Or.inr ⟨r.num, kv, h5, ?_⟩
    rw [h6, h7, ← h3]; rfl

/-- **C21**, proved part: without slashes in the names of nets and materials no file name has one.
Missing: names with a slash, for which the statement is false (`names_fail_slash`). -/
theorem names_no_slash_partial {c : Cfg} {diel : Dict HDielKey (List T)} {cond : Dict HCondKey (List T)} {o : Out T}
    (h : write c diel cond = .ok o) (hs : NoSlash c diel cond) : ∀ f ∈ o.files, '/' ∉ f.1 := by
  intro f hf
  have hov : ∀ m : Option String, (∀ x, m = some x → '/' ∉ x.toList) → '/' ∉ orVoid m := by
    intro m hm hx
    rcases orVoid_mem hx with hx | ⟨y, hy, hx⟩
    · revert hx; decide
    · exact hm y hy hx
  have hd := dec_no_slash
  rcases file_cases h hf with ⟨num, kv, hkv, e⟩ | ⟨num, kv, hkv, e⟩
  · rw [e, dielName]
    have h1 := hov kv.1.outside (fun x hx => hs.diel kv hkv x (Or.inl hx))
    have h2 := hov kv.1.inside (fun x hx => hs.diel kv hkv x (Or.inr hx))
    have h3 := hs.pre
    have h4 := hd num
    simp only [List.mem_append, not_or]
    exact ⟨⟨⟨⟨⟨⟨h3, h4⟩, by decide⟩, h1⟩, by decide⟩, h2⟩, by decide⟩
  · obtain ⟨g1, g2⟩ := hs.cond kv hkv
    have h1 := hov kv.1.outside g2
    have h3 := hs.pre
    have h4 := hd num
    have full : '/' ∉ c.pre ++ dec num ++ "_outside=".toList ++ orVoid kv.1.outside ++ "_net=".toList ++
        kv.1.netName.toList ++ ".geo".toList := by
      simp only [List.mem_append, not_or]
      exact ⟨⟨⟨⟨⟨⟨h3, h4⟩, by decide⟩, h1⟩, by decide⟩, g1⟩, by decide⟩
    rw [e]
    unfold condName
    cases c.maxLen with
    | none => exact full
    | some mx =>
      simp only []
      split
      · simp only [List.mem_append, not_or]
        exact ⟨⟨⟨⟨⟨⟨h3, h4⟩, by decide⟩, h1⟩, by decide⟩, fun hx => g1 (sliceTo_sub _ _ _ hx), by decide, hs.digest _⟩, by decide⟩
      · exact full

theorem named_le {pre : Str} : ∀ {f : Nat} {ns : List Str}, Named pre f ns → ∀ n ∈ ns,
    ∃ i r, i ≤ f + ns.length ∧ n = pre ++ (dec i ++ '_' :: r)
  | _, [], _, n, hn => by simp at hn
  | f, m :: ns, h, n, hn => by
    rcases List.mem_cons.1 hn with rfl | hn
    · obtain ⟨r, hr⟩ := h.1
      exact ⟨f + 1, r, by simp, hr⟩
    · obtain ⟨i, r, hi, hr⟩ := named_le h.2 n hn
      exact ⟨i, r, by simp only [List.length_cons]; omega, hr⟩

theorem file_number {c : Cfg} {diel : Dict HDielKey (List T)} {cond : Dict HCondKey (List T)} {o : Out T}
    (h : write c diel cond = .ok o) {f : Str × Geo T} (hf : f ∈ o.files) {num : Nat}
    (hn : ∃ r, f.1 = c.pre ++ (dec num ++ '_' :: r)) : num ≤ o.files.length := by
  have hN : Named c.pre 0 (o.files.map Prod.fst) := by
    obtain ⟨_, h2⟩ := write_eq h
    rw [h2, List.map_append, List.map_map, List.map_map]
    refine named_append (dielRecs_named c diel 0) ?_
    rw [List.length_map, Nat.zero_add]
    exact netRecs_named c _ _ _
  obtain ⟨i, r, hi, hr⟩ := named_le hN f.1 (List.mem_map.2 ⟨f, hf, rfl⟩)
  obtain ⟨r', hr'⟩ := hn
  rw [hr'] at hr
  have := dec_sep_inj (c := '_') (by decide) (List.append_cancel_left hr)
  simp only [List.length_map] at hi
  omega

theorem dec_length {n d : Nat} (hd : 0 < d) (h : n < 10 ^ d) : (dec n).length ≤ d := by
  have := (Nat.length_repr_le_iff (n := n) hd).2 h
  unfold dec
  rw [String.length_toList]
  exact this

theorem orVoid_length (m : Option String) {k : Nat} (h6 : 6 ≤ k) (h : ∀ x, m = some x → x.length ≤ k) :
    (orVoid m).length ≤ k := by
  unfold orVoid
  have e : "(void)".toList.length = 6 := by decide
  cases m with
  | none => simp only []; omega
  | some x =>
    simp only []
    split
    · omega
    · rw [String.length_toList]; exact h x rfl

theorem condName_length (c : Cfg) (mx : Nat) (hmx : c.maxLen = some mx) (num : Nat) (outside : Option String) (nn : Str)
    (hroom : c.pre.length + (dec num).length + (orVoid outside).length + (c.digest nn).length + 20 ≤ mx) :
    (condName c num outside nn).length ≤ mx := by
  unfold condName
  rw [hmx]
  simp only []
  split
  · have e1 : "_outside=".toList.length = 9 := by decide
    have e2 : "_net=".toList.length = 5 := by decide
    have e3 : ".geo".toList.length = 4 := by decide
    have e4 : "_net=.geo".toList.length = 9 := by decide
    have e5 : "_".toList.length = 1 := by decide
    simp only [List.length_append, e1, e2, e3, e4, e5, sliceTo, List.length_take]
    split <;> omega
  · omega

/-- **C21**, proved part: no name of a geometry file is longer than the maximal length, however long the names of the
nets are, if there is room for the other parts: less than `10 ^ d` files, materials of at most `k` characters, digests of
at most `g` characters.
Missing: longer prefixes or names of materials, for which the statement is false (`names_fail_material`), and characters
of more than one byte (`names_fail_bytes`). -/
theorem names_short_partial {c : Cfg} {diel : Dict HDielKey (List T)} {cond : Dict HCondKey (List T)} {o : Out T}
    (h : write c diel cond = .ok o) {mx d k g : Nat} (hmx : c.maxLen = some mx) (hd : 0 < d) (hfiles : o.files.length < 10 ^ d)
    (hk : 6 ≤ k)
    (hdiel : ∀ e ∈ diel, ∀ x, e.1.outside = some x ∨ e.1.inside = some x → x.length ≤ k)
    (hcond : ∀ e ∈ cond, ∀ x, e.1.outside = some x → x.length ≤ k)
    (hdigest : ∀ e ∈ cond, (c.digest e.1.netName.toList).length ≤ g)
    (hroomC : c.pre.length + d + k + g + 20 ≤ mx) (hroomD : c.pre.length + d + 2 * k + 21 ≤ mx) :
    ∀ f ∈ o.files, f.1.length ≤ mx := by
  intro f hf
  rcases file_cases h hf with ⟨num, kv, hkv, e⟩ | ⟨num, kv, hkv, e⟩
  · have hn := file_number h hf (num := num) (e ▸ dielName_form c num kv.1)
    have h1 := dec_length hd (lt_of_le_of_lt hn hfiles)
    have h2 := orVoid_length kv.1.outside hk (fun x hx => hdiel kv hkv x (Or.inl hx))
    have h3 := orVoid_length kv.1.inside hk (fun x hx => hdiel kv hkv x (Or.inr hx))
    rw [e, dielName]
    have e1 : "_outside=".toList.length = 9 := by decide
    have e2 : "_inside=".toList.length = 8 := by decide
    have e3 : ".geo".toList.length = 4 := by decide
    simp only [List.length_append, e1, e2, e3]
    omega
  · have hn := file_number h hf (num := num) (e ▸ condName_form c num _ _)
    have h1 := dec_length hd (lt_of_le_of_lt hn hfiles)
    have h2 := orVoid_length kv.1.outside hk (fun x hx => hcond kv hkv x hx)
    have h3 := hdigest kv hkv
    rw [e]
    exact condName_length c mx hmx num _ _ (by omega)

/-! ### C20: conductors -/

theorem lookup_of_nodup {files : List (Str × Geo T)} (hn : (files.map Prod.fst).Nodup) {f : Str × Geo T} (hf : f ∈ files) :
    lookup files f.1 = some f.2 := by
  unfold lookup
  have hu : ∀ x ∈ files.reverse, x.1 = f.1 → x = f := by
    intro x hx e
    exact List.inj_on_of_nodup_map hn (List.mem_reverse.1 hx) hf e
  have hf' : f ∈ files.reverse := List.mem_reverse.2 hf
  generalize files.reverse = l at hu hf'
  induction l with
  | nil => simp at hf'
  | cons x l ih =>
    rw [List.find?_cons]
    by_cases e : x.1 = f.1
    · rw [hu x (by simp) e]; simp
    · have : f ∈ l := by
        rcases List.mem_cons.1 hf' with rfl | h
        · exact absurd rfl e
        · exact h
      simp only [e, decide_false]
      exact ih (fun y hy => hu y (by simp [hy])) this

theorem readGroups_surf (c : Cfg) (condNum : Nat) (nn : String) (ss : List (Option String × List T)) :
    ∀ (f : Nat) (acc : List (Str × ℚ)) (rest : List Line), ss ≠ [] →
    readGroups acc ((surfRecs condNum nn f ss).map (CRec.line c) ++ rest) =
      (readGroups [] rest).map ((acc ++ (surfRecs condNum nn f ss).map (fun r => (r.name c, permittivity c r.outside))) :: ·) := by
  induction ss with
  | nil => intro f acc rest h; exact absurd rfl h
  | cons x ss ih =>
    intro f acc rest _
    cases ss with
    | nil => simp [surfRecs, CRec.line, readGroups]
    | cons y r =>
      have e : (surfRecs condNum nn f (x :: y :: r)) = ⟨f + 1, condNum, nn, x.1, x.2, false⟩ :: surfRecs condNum nn (f + 1) (y :: r) := rfl
      rw [e, List.map_cons, List.cons_append]
      have e2 : CRec.line c (⟨f + 1, condNum, nn, x.1, x.2, false⟩ : CRec T) =
        .cond (CRec.name c (⟨f + 1, condNum, nn, x.1, x.2, false⟩ : CRec T)) (permittivity c x.1) true := rfl
      rw [e2, readGroups]
      have := ih (f + 1) (acc ++ [(CRec.name c ⟨f + 1, condNum, nn, x.1, x.2, false⟩, permittivity c x.1)]) rest (by simp)
      rw [this]
      simp

/-- Groups of the records of the nets. -/
def netGroups (c : Cfg) : Nat → Nat → List (String × List (Option String × List T)) → List (List (Str × ℚ))
  | _, _, [] => []
  | f, n, (nn, ss) :: r => (surfRecs (n + 1) nn f ss).map (fun r => (r.name c, permittivity c r.outside)) ::
      netGroups c (f + ss.length) (n + 1) r

theorem readGroups_nets (c : Cfg) (ns : List (String × List (Option String × List T))) :
    ∀ f n, (∀ e ∈ ns, e.2 ≠ []) → readGroups [] ((netRecs f n ns).map (CRec.line c)) = some (netGroups c f n ns) := by
  induction ns with
  | nil => intro f n _; rfl
  | cons e ns ih =>
    intro f n hne
    simp only [netRecs, List.map_append]
    rw [readGroups_surf c _ _ _ _ _ _ (hne e (by simp)), ih _ _ (fun e he => hne e (by simp [he]))]
    simp [netGroups]

theorem readGroups_diel (c : Cfg) (ds : List (Nat × HDielKey × List T)) (rest : List Line) :
    readGroups [] (ds.map (dLine c) ++ rest) = readGroups [] rest := by
  induction ds with
  | nil => rfl
  | cons d ds ih => simp only [List.map_cons, List.cons_append, dLine, readGroups, if_true]; exact ih

theorem conductorFiles_eq (c : Cfg) (number : Nat) (nn : String) (ss : List (Option String × List T)) :
    ∀ f, conductorFiles c number nn ss = (surfRecs number nn f ss).map (fun r => (permittivity c r.outside, (r.file c).2)) := by
  induction ss with
  | nil => intro f; rfl
  | cons x ss ih =>
    intro f
    cases ss with
    | nil =>
      simp only [conductorFiles, surfRecs, List.map_cons, List.map_nil, CRec.file, geo, List.isEmpty_nil]
      by_cases h : nn = ""
      · subst h; simp
      · have : nn.toList ≠ [] := by
          intro e; apply h; exact String.toList_inj.1 (by rw [e]; rfl)
        simp [h, this]
    | cons y r =>
      have e : (surfRecs number nn f (x :: y :: r)) = ⟨f + 1, number, nn, x.1, x.2, false⟩ :: surfRecs number nn (f + 1) (y :: r) := rfl
      rw [conductorFiles, e, List.map_cons, ih (f + 1)]
      simp [CRec.file, geo]

/-- **C20.** Reading the files back gives exactly one conductor per net (with at least one triangle), in order; conductor
`i` consists of one uninterrupted group of files, closed before the next one, one file per surface of the net with the
permittivity of the outside material and the triangles of the surface; all files of the conductor carry the same number,
which no other conductor has (the `i`-th after the number of dielectric surfaces), and the last one names the net. -/
theorem conductors_read {c : Cfg} {diel : Dict HDielKey (List T)} {cond : Dict HCondKey (List T)} {o : Out T}
    (h : write c diel cond = .ok o) :
    ∃ gs, readGroups [] o.lst = some gs ∧
      List.Forall₂ (fun (ni : String × Nat) g => g.map (fun x => (x.2, lookup o.files x.1)) =
          (conductorFiles c ((diel.filter (fun kv => !kv.2.isEmpty)).length + ni.2 + 1) ni.1 (surfaces cond ni.1)).map
            (fun x => (x.1, some x.2)))
        (netsOf cond).zipIdx gs ∧ (netsOf cond).Nodup := by
  have hnd := names_distinct h
  obtain ⟨h1, h2⟩ := write_eq h
  have hD : (dielRecs 0 diel).length = (diel.filter (fun kv => !kv.2.isEmpty)).length := by
    have : ∀ (ds : List (HDielKey × List T)) f, (dielRecs f ds).length = (ds.filter (fun kv => !kv.2.isEmpty)).length := by
      intro ds
      induction ds with
      | nil => intro f; rfl
      | cons e ds ih =>
        intro f
        simp only [dielRecs, List.filter_cons]
        cases hv : e.2.isEmpty <;> simp [ih]
    exact this diel 0
  have hne : ∀ e ∈ group cond, e.2 ≠ [] := by
    intro e he
    rw [group_eq] at he
    obtain ⟨n, hn, rfl⟩ := List.mem_map.1 he
    rw [netsOf, mem_firsts, List.mem_map] at hn
    obtain ⟨kv, hkv, rfl⟩ := hn
    intro e
    have : (kv.1.outside, kv.2) ∈ surfaces cond kv.1.netName := by
      unfold surfaces
      exact List.mem_map.2 ⟨kv, List.mem_filter.2 ⟨hkv, by simp⟩, rfl⟩
    simp only [] at e
    rw [e] at this
    simp at this
  refine ⟨netGroups c (dielRecs 0 diel).length (dielRecs 0 diel).length (group cond), ?_, ?_, nodup_firsts _⟩
  · have hv : ∀ ls, readGroups [] (.void c.kVoid :: ls) = readGroups [] ls := fun ls => by simp [readGroups]
    rw [h1, hv, readGroups_diel, readGroups_nets c _ _ _ hne]
  · have hfiles : ∀ r ∈ netRecs (dielRecs 0 diel).length (dielRecs 0 diel).length (group cond), r.file c ∈ o.files := by
      intro r hr
      rw [h2]
      exact List.mem_append_right _ (List.mem_map_of_mem hr)
    rw [← hD]
    generalize (dielRecs 0 diel).length = D at hfiles ⊢
    have hlook : ∀ r ∈ netRecs D D (group cond), lookup o.files (r.name c) = some (r.file c).2 := by
      intro r hr
      exact lookup_of_nodup hnd (hfiles r hr)
    clear hfiles h1 h2 hD hne h hnd
    rw [group_eq] at hlook ⊢
    have key : ∀ (l : List String) (f j : Nat),
        (∀ r ∈ netRecs f (D + j) (l.map (fun n => (n, surfaces cond n))), lookup o.files (r.name c) = some (r.file c).2) →
        List.Forall₂ (fun (ni : String × Nat) g => g.map (fun x => (x.2, lookup o.files x.1)) =
          (conductorFiles c (D + ni.2 + 1) ni.1 (surfaces cond ni.1)).map (fun x => (x.1, some x.2)))
        (l.zipIdx j) (netGroups c f (D + j) (l.map (fun n => (n, surfaces cond n)))) := by
      intro l
      induction l with
      | nil => intro f j _; exact List.Forall₂.nil
      | cons n l ih =>
        intro f j hl
        simp only [List.map_cons, netRecs, List.mem_append] at hl
        simp only [List.zipIdx_cons, List.map_cons, netGroups]
        refine List.Forall₂.cons ?_ ?_
        · rw [conductorFiles_eq c _ _ _ f, List.map_map, List.map_map]
          apply List.map_congr_left
          intro r hr
          simp only [Function.comp]
          rw [hl r (Or.inl hr)]
        · exact ih (f + (surfaces cond n).length) (j + 1) (fun r hr => hl r (Or.inr hr))
    exact key (netsOf cond) D 0 hlook

/-- **C20.** The dielectric lines of the list file are exactly the non-empty dielectric surfaces in order, with the
permittivities on both sides and the triangles of the surface in the file. -/
theorem dielectrics_read {c : Cfg} {diel : Dict HDielKey (List T)} {cond : Dict HCondKey (List T)} {o : Out T}
    (h : write c diel cond = .ok o) :
    o.lst.filterMap (fun | .diel fn a b => some (a, b, (lookup o.files fn).map (fun g => (g.tris, g.rename))) | _ => none) =
      (diel.filter (fun kv => !kv.2.isEmpty)).map
        (fun kv => (permittivity c kv.1.outside, permittivity c kv.1.inside, some (kv.2, none))) := by
  have hnd := names_distinct h
  obtain ⟨h1, h2⟩ := write_eq h
  have hlook : ∀ r ∈ dielRecs 0 diel, lookup o.files (dielName c r.1 r.2.1) = some (dFile c r).2 := by
    intro r hr
    refine lookup_of_nodup hnd (f := dFile c r) ?_
    rw [h2]
    exact List.mem_append_left _ (List.mem_map_of_mem hr)
  rw [h1, List.filterMap_cons, List.filterMap_append]
  have hc : ∀ l : List (CRec T), (l.map (CRec.line c)).filterMap
      (fun | .diel fn a b => some (a, b, (lookup o.files fn).map (fun g => (g.tris, g.rename))) | _ => none) = [] := by
    intro l
    induction l with
    | nil => rfl
    | cons r l ih => simpa [CRec.line] using ih
  simp only [hc, List.append_nil]
  clear hc h1 h2 hnd h
  generalize o.files = files at hlook ⊢
  generalize 0 = f at hlook ⊢
  induction diel generalizing f with
  | nil => rfl
  | cons e ds ih =>
    obtain ⟨k, v⟩ := e
    simp only [dielRecs, List.filter_cons] at hlook ⊢
    cases hv : v.isEmpty with
    | true =>
      rw [hv] at hlook
      simp only [if_true, Bool.not_true, Bool.false_eq_true, if_false] at hlook ⊢
      exact ih f hlook
    | false =>
      rw [hv] at hlook
      simp only [Bool.false_eq_true, if_false, Bool.not_false, if_true, List.map_cons] at hlook ⊢
      rw [List.filterMap_cons]
      have h0 := hlook (f + 1, k, v) (by simp)
      simp only [dLine, h0, dFile, geo, Option.map_some]
      congr 1
      exact ih (f + 1) (fun r hr => hlook r (by simp [hr]))

/-- **C20.** Writing fails only if a surface refers to an undeclared material. -/
theorem write_succeeds (c : Cfg) (diel : Dict HDielKey (List T)) (cond : Dict HCondKey (List T)) :
    (∃ o, write c diel cond = .ok o) ↔
      (∀ e ∈ diel, e.2 ≠ [] → Known c e.1.outside ∧ Known c e.1.inside) ∧ (∀ e ∈ cond, e.2 ≠ [] → Known c e.1.outside) := by
  constructor
  · rintro ⟨o, h⟩
    unfold write at h
    cases h1 : diel.foldlM (dielStep c) { lst := [.void c.kVoid] } with
    | error m => rw [h1] at h; cases h
    | ok s =>
      rw [h1] at h
      cases h2 : (group cond).foldlM (netStep c) (s, s.fileNum) with
      | error m => simp only [bind, Except.bind, h2] at h; cases h
      | ok r =>
        refine ⟨diel_fold_known c diel _ _ h1, ?_⟩
        intro e he hne
        have k2 := net_fold_known c _ _ _ h2
        rw [group_eq] at k2
        have hf : e ∈ cond.filter (fun kv => !kv.2.isEmpty) := List.mem_filter.2 ⟨he, by simpa using hne⟩
        refine k2 (e.1.netName, surfaces cond e.1.netName) ?_ (e.1.outside, e.2) ?_
        · refine List.mem_map.2 ⟨e.1.netName, ?_, rfl⟩
          rw [netsOf, mem_firsts]
          exact List.mem_map.2 ⟨e, hf, rfl⟩
        · exact List.mem_map.2 ⟨e, List.mem_filter.2 ⟨hf, by simp⟩, rfl⟩
  · rintro ⟨h1, h2⟩
    have hne : ∀ e ∈ group cond, e.2 ≠ [] := by
      intro e he
      rw [group_eq] at he
      obtain ⟨n, hn, rfl⟩ := List.mem_map.1 he
      rw [netsOf, mem_firsts, List.mem_map] at hn
      obtain ⟨kv, hkv, rfl⟩ := hn
      intro e
      have : (kv.1.outside, kv.2) ∈ surfaces cond kv.1.netName := by
        unfold surfaces
        exact List.mem_map.2 ⟨kv, List.mem_filter.2 ⟨hkv, by simp⟩, rfl⟩
      simp only [] at e
      rw [e] at this
      simp at this
    have hk : ∀ e ∈ group cond, ∀ x ∈ e.2, Known c x.1 := by
      intro e he x hx
      obtain ⟨kv, h3, h4, h5, h6⟩ := group_mem he hx
      rw [← h5]
      refine h2 kv h3 ?_
      rw [h6]
      rw [group_eq] at he
      obtain ⟨n, hn, rfl⟩ := List.mem_map.1 he
      simp only [surfaces, List.mem_map, List.mem_filter] at hx
      obtain ⟨kv, ⟨⟨_, h7⟩, _⟩, rfl⟩ := hx
      simpa using h7
    unfold write
    rw [diel_fold c diel _ h1]
    simp only [bind, Except.bind]
    rw [net_fold c _ _ _ hne hk]
    exact ⟨_, rfl⟩

/-! ### Concrete cases and counterexamples -/

/-- One dielectric interface, two nets, one of them with two surfaces. -/
def exCfg : Cfg where
  materials := [("fox", 4), ("nild", 7)]
  kVoid := 1
  pre := "m".toList
  maxLen := some 60
  digest := fun _ => "0123456789012345678901".toList

def exDiel : Dict HDielKey (List Nat) := [(⟨some "fox", some "nild"⟩, [1, 2]), (⟨none, some "nild"⟩, [])]
def exCond : Dict HCondKey (List Nat) := [(⟨"VDD", some "nild"⟩, [3]), (⟨"VSS", some "nild"⟩, [4]), (⟨"VDD", none⟩, [5, 6])]

example : (match write exCfg exDiel exCond with
    | .ok o => decide (readGroups [] o.lst = some
        [[("m2_outside=nild_net=VDD.geo".toList, 7), ("m3_outside=(void)_net=VDD.geo".toList, 1)],
         [("m4_outside=nild_net=VSS.geo".toList, 7)]] ∧
        lookup o.files "m3_outside=(void)_net=VDD.geo".toList = some ⟨2, [5, 6], some "VDD".toList⟩)
    | .error _ => false) = true := by decide +kernel

example : NoSlash exCfg exDiel exCond where
  pre := by decide
  digest := fun _ => by show '/' ∉ "0123456789012345678901".toList; decide
  diel := by
    intro e he x hx
    simp only [exDiel, List.mem_cons, List.not_mem_nil, or_false] at he
    rcases he with rfl | rfl <;> rcases hx with hx | hx <;> cases hx <;> decide
  cond := by
    intro e he
    simp only [exCond, List.mem_cons, List.not_mem_nil, or_false] at he
    rcases he with rfl | rfl | rfl
    · exact ⟨by decide, fun x hx => by cases hx; decide⟩
    · exact ⟨by decide, fun x hx => by cases hx; decide⟩
    · exact ⟨by decide, fun x hx => by cases hx⟩

/-- Three files in a model with room for names: the hypotheses of `names_short_partial` hold, with a net name that is
longer than the limit. -/
def exLong : Dict HCondKey (List Nat) :=
  [(⟨"VDD", some "nild"⟩, [3]), (⟨"a_net_with_a_name_that_does_not_fit_into_a_file_name_of_sixty_characters", none⟩, [5, 6])]

example : ∃ o, write exCfg exDiel exLong = .ok o ∧ o.files.length < 10 ^ 1 ∧
    (∀ e ∈ exDiel, ∀ x, e.1.outside = some x ∨ e.1.inside = some x → x.length ≤ 6) ∧
    (∀ e ∈ exLong, ∀ x, e.1.outside = some x → x.length ≤ 6) ∧
    (∀ e ∈ exLong, (exCfg.digest e.1.netName.toList).length ≤ 22) ∧
    exCfg.pre.length + 1 + 6 + 22 + 20 ≤ 60 ∧ exCfg.pre.length + 1 + 2 * 6 + 21 ≤ 60 := by
  cases h : write exCfg exDiel exLong with
  | error e =>
    have key : (match write exCfg exDiel exLong with | .ok _ => true | .error _ => false) = true := by decide +kernel
    rw [h] at key; cases key
  | ok o =>
    have key : (match write exCfg exDiel exLong with | .ok o => decide (o.files.length < 10 ^ 1) | .error _ => false) = true := by
      decide +kernel
    rw [h] at key
    refine ⟨o, rfl, by simpa using key, ?_, ?_, fun e _ => by show "0123456789012345678901".toList.length ≤ 22; decide,
      by decide, by decide⟩
    · intro e he x hx
      simp only [exDiel, List.mem_cons, List.not_mem_nil, or_false] at he
      rcases he with rfl | rfl <;> rcases hx with hx | hx <;> cases hx <;> decide
    · intro e he x hx
      simp only [exLong, List.mem_cons, List.not_mem_nil, or_false] at he
      rcases he with rfl | rfl <;> cases hx; decide

/-- **C21 is false** in general: a net name with a slash (hierarchical nets) ends up in the file name. -/
theorem names_fail_slash : ∃ (c : Cfg) (cond : Dict HCondKey (List Nat)) (o : Out Nat),
    write c [] cond = .ok o ∧ ∃ f ∈ o.files, '/' ∈ f.1 := by
  cases h : write exCfg [] [(⟨"X1/A", some "nild"⟩, [3])] with
  | error e =>
    have key : (match write exCfg [] [(⟨"X1/A", some "nild"⟩, [3])] with | .ok _ => true | .error _ => false) = true := by
      decide +kernel
    rw [h] at key; cases key
  | ok o =>
    have key : (match write exCfg [] [(⟨"X1/A", some "nild"⟩, [3])] with
      | .ok o => o.files.any (fun f => f.1.contains '/') | .error _ => false) = true := by decide +kernel
    rw [h] at key
    simp only [List.any_eq_true, List.contains_eq_mem, decide_eq_true_eq] at key
    exact ⟨_, _, o, h, key⟩

/-- **C21 is false** in general: the names of dielectric files are never shortened. -/
theorem names_fail_material : ∃ (c : Cfg) (diel : Dict HDielKey (List Nat)) (o : Out Nat) (mx : Nat), c.maxLen = some mx ∧
    write c diel [] = .ok o ∧ ∃ f ∈ o.files, f.1.length > mx := by
  let c : Cfg := { exCfg with materials := [("a_very_long_name_of_a_dielectric_material_that_does_not_fit", 4)] }
  let d : Dict HDielKey (List Nat) := [(⟨some "a_very_long_name_of_a_dielectric_material_that_does_not_fit", none⟩, [1])]
  cases h : write c d [] with
  | error e =>
    have key : (match write c d [] with | .ok _ => true | .error _ => false) = true := by decide +kernel
    rw [h] at key; cases key
  | ok o =>
    have key : (match write c d [] with
      | .ok o => o.files.any (fun f => decide (f.1.length > 60)) | .error _ => false) = true := by decide +kernel
    rw [h] at key
    simp only [List.any_eq_true, decide_eq_true_eq] at key
    exact ⟨c, d, o, 60, rfl, h, key⟩

/-- Number of bytes of a name on disk. -/
def bytes (s : Str) : Nat := (s.map Char.utf8Size).sum

/-- **C21**, proved part: names without characters of more than one byte have as many bytes as characters. -/
theorem bytes_ascii (s : Str) (h : ∀ x ∈ s, x.utf8Size = 1) : bytes s = s.length := by
  unfold bytes
  induction s with
  | nil => rfl
  | cons x s ih => rw [List.map_cons, List.sum_cons, ih (fun y hy => h y (by simp [hy])), h x (by simp), List.length_cons]; omega

/-- **C21 is false** in general: the limit of the file system counts bytes, the code counts characters. -/
theorem names_fail_bytes : ∃ (c : Cfg) (cond : Dict HCondKey (List Nat)) (o : Out Nat) (mx : Nat), c.maxLen = some mx ∧
    write c [] cond = .ok o ∧ ∃ f ∈ o.files, f.1.length ≤ mx ∧ bytes f.1 > mx := by
  let d : Dict HCondKey (List Nat) := [(⟨"äääääääääääääääääääääääääääääääääääääää", none⟩, [1])]
  cases h : write exCfg [] d with
  | error e =>
    have key : (match write exCfg [] d with | .ok _ => true | .error _ => false) = true := by decide +kernel
    rw [h] at key; cases key
  | ok o =>
    have key : (match write exCfg [] d with
      | .ok o => o.files.any (fun f => decide (f.1.length ≤ 60 ∧ bytes f.1 > 60)) | .error _ => false) = true := by decide +kernel
    rw [h] at key
    simp only [List.any_eq_true, decide_eq_true_eq] at key
    exact ⟨exCfg, d, o, 60, rfl, h, key⟩

end Verif.ListFile
