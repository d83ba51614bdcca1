import Mathlib.Data.List.Induction
import Verif.LvsCache.Model
import Verif.Common.Stem

/-!
# The LVS database belongs to the layout (C36)
-/

namespace Verif.LvsCache

/-! ### Specification -/

/-- The content of the layout `g` after a history (in which it is not written during a run): that of the last write. -/
def contentOf (g : Str) (ops : List (Nat × Op)) : Option Nat :=
  ops.foldl (fun c o => match o.2 with
    | .edit g' c' => if g' = g then some c' else c
    | .restore g' c' _ => if g' = g then some c' else c
    | .removeGds g' => if g' = g then none else c
    | _ => c) none

/-- Times do not decrease. -/
def Ordered (ops : List (Nat × Op)) : Prop := ops.Pairwise (fun a b => a.1 ≤ b.1)

/-- Writing a layout sets its modification time. -/
def NoRestore (ops : List (Nat × Op)) : Prop := ∀ t g c m, (t, Op.restore g c m) ∉ ops

/-- KLayout always writes the database, and layouts are not written during a run. -/
def Reliable (ops : List (Nat × Op)) : Prop :=
  ∀ t r, (t, Op.run r) ∈ ops → r.lvsWrites = true ∧ r.meanwhile = none

/-- Runs with the same output directory and cell, whose layouts have the same file name up to the first dot, have the same layout, LVS script and
schematic. -/
def OwnOutput (ops : List (Nat × Op)) : Prop :=
  ∀ t r t' r', (t, Op.run r) ∈ ops → (t', Op.run r') ∈ ops → r.base = r'.base → (∃ st, StemOf r.gds st ∧ StemOf r'.gds st) → r.cell = r'.cell →
    r.gds = r'.gds ∧ r.setup = r'.setup

/-- No two output directories share a cache directory. -/
def OwnCache (ops : List (Nat × Op)) : Prop :=
  ∀ t r t' r', (t, Op.run r) ∈ ops → (t', Op.run r') ∈ ops →
    r.cacheDir.getD (r.base ++ "/.kpex_cache".toList) = r'.cacheDir.getD (r'.base ++ "/.kpex_cache".toList) → r.base = r'.base

/-- No database in an output directory is deleted. -/
def NoRemoveOut (ops : List (Nat × Op)) : Prop := ∀ t k, (t, Op.removeOut k) ∉ ops

/-- This is the case if `--cache-dir` is never used. -/
theorem ownCache_of_default (ops : List (Nat × Op)) (h : ∀ t r, (t, Op.run r) ∈ ops → r.cacheDir = none) : OwnCache ops := by
  intro t r t' r' hr hr' he
  rw [h t r hr, h t' r' hr'] at he
  exact List.append_cancel_right he

/-! ### Invariant -/

structure Inv (ops : List (Nat × Op)) (s : State) : Prop where
  content : ∀ g, (s.gds g).map Prod.fst = contentOf g ops
  cacheTime : ∀ k db m, s.cache k = some (db, m) → ∃ o ∈ ops, m ≤ o.1
  cacheRun : ∀ k v, s.cache k = some v → ∃ t r, (t, Op.run r) ∈ ops ∧ k = r.cacheKey
  fresh : ∀ t r db m c mt, (t, Op.run r) ∈ ops → s.cache r.cacheKey = some (db, m) →
    s.gds r.gds = some (c, mt) → mt < m → ∀ db', s.out r.outKey = some db' → db' = ⟨c, r.cell, r.setup⟩
  present : NoRemoveOut ops → ∀ t r v, (t, Op.run r) ∈ ops → s.cache r.cacheKey = some v → (s.out r.outKey).isSome

theorem put_at {κ ν : Type} [DecidableEq κ] (f : κ → Option ν) (k : κ) (v : Option ν) (k' : κ) :
    put f k v k' = if k' = k then v else f k' := rfl

theorem contentOf_snoc (g : Str) (ops : List (Nat × Op)) (o : Nat × Op) :
    contentOf g (ops ++ [o]) = match o.2 with
      | .edit g' c' => if g' = g then some c' else contentOf g ops
      | .restore g' c' _ => if g' = g then some c' else contentOf g ops
      | .removeGds g' => if g' = g then none else contentOf g ops
      | _ => contentOf g ops := by
  unfold contentOf
  rw [List.foldl_append]
  rfl

theorem play_snoc (ops : List (Nat × Op)) (o : Nat × Op) : play (ops ++ [o]) = step o.1 (play ops) o.2 := by
  unfold play
  rw [List.foldl_append]
  rfl

theorem key_out {ops : List (Nat × Op)} (ho : OwnOutput ops) (hc : OwnCache ops) {t t' : Nat} {r r' : Run}
    (h : (t, Op.run r) ∈ ops) (h' : (t', Op.run r') ∈ ops) (hk : r.cacheKey = r'.cacheKey) :
    r.outKey = r'.outKey ∧ r.gds = r'.gds ∧ r.cell = r'.cell ∧ r.setup = r'.setup := by
  unfold Run.cacheKey at hk
  rw [Prod.mk.injEq, Prod.mk.injEq, Prod.mk.injEq] at hk
  obtain ⟨h1, -, h3, h4⟩ := hk
  have hb := hc t r t' r' h h' h1
  refine ⟨?_, h3, h4, (ho t r t' r' h h' hb ⟨_, stemOf_split _, by rw [h3]; exact stemOf_split _⟩ h4).2⟩
  unfold Run.outKey
  rw [hb, h3, h4]

theorem out_same {ops : List (Nat × Op)} (ho : OwnOutput ops) {t t' : Nat} {r r' : Run}
    (h : (t, Op.run r) ∈ ops) (h' : (t', Op.run r') ∈ ops) (hk : r.outKey = r'.outKey) :
    r.gds = r'.gds ∧ r.cell = r'.cell ∧ r.setup = r'.setup := by
  unfold Run.outKey at hk
  rw [Prod.mk.injEq, Prod.mk.injEq] at hk
  obtain ⟨h1, h2, h3⟩ := hk
  have := ho t r t' r' h h' h1 ⟨stem r.gds, stemOf_split _, h2 ▸ stemOf_split _⟩ h3
  exact ⟨this.1, h3, this.2⟩

/-- The effect of a run in which KLayout is called and writes. -/
theorem run_miss (r : Run) (now : Nat) (s : State) (c m : Nat) (hg : s.gds r.gds = some (c, m)) (hw : r.lvsWrites = true)
    (hn : lvsNeeded r m s = true) : createLvsdb r now s =
      (⟨r.meanwhile.elim s.gds (fun v => put s.gds r.gds (some v)), put s.out r.outKey (some ⟨c, r.cell, r.setup⟩),
        if r.cacheLvs then put s.cache r.cacheKey (some (⟨c, r.cell, r.setup⟩, now)) else s.cache⟩,
       .ok ⟨c, r.cell, r.setup⟩) := by
  have ho : (runLvs r c s).out r.outKey = some ⟨c, r.cell, r.setup⟩ := by
    unfold runLvs
    simp only [hw, if_true]
    rw [put_at, if_pos rfl]
  unfold createLvsdb
  rw [hg]
  dsimp only
  rw [if_pos hn]
  unfold store
  cases hcl : r.cacheLvs
  · simp only [Bool.false_eq_true, if_false]
    unfold read
    rw [ho]
    simp only [runLvs, hw, if_true]
  · simp only [if_true]
    rw [ho]
    dsimp only
    unfold read
    dsimp only
    rw [ho]
    simp only [runLvs, hw, if_true]

theorem run_hit (r : Run) (now : Nat) (s : State) (c m : Nat) (hg : s.gds r.gds = some (c, m))
    (hn : lvsNeeded r m s = false) : createLvsdb r now s = (s, read r s) := by
  unfold createLvsdb
  rw [hg]
  dsimp only
  rw [if_neg (by rw [hn]; simp)]

theorem hit_inv {r : Run} {m : Nat} {s : State} (hn : lvsNeeded r m s = false) :
    ∃ db t, s.cache r.cacheKey = some (db, t) ∧ m < t := by
  unfold lvsNeeded at hn
  split at hn
  · split at hn
    · simp at hn
    · next db t h => exact ⟨db, t, h, by simpa using hn⟩
  · simp at hn

theorem inv_nil : Inv [] (play []) := by
  constructor
  · intro g; rfl
  · intro k db m h; cases h
  · intro k v h; cases h
  · intro t r db m c mt h; cases h
  · intro _ t r v h; cases h

theorem mem_snoc_run {ops : List (Nat × Op)} {o : Nat × Op} {t : Nat} {r : Run} (h : (t, Op.run r) ∈ ops ++ [o])
    (hne : ∀ r', o.2 ≠ .run r') : (t, Op.run r) ∈ ops := by
  rcases List.mem_append.1 h with h | h
  · exact h
  · rw [List.mem_singleton] at h
    exact absurd (congrArg Prod.snd h).symm (hne r)

theorem inv_play (ops : List (Nat × Op)) (hord : Ordered ops) (hnr : NoRestore ops) (hrel : Reliable ops) (hout : OwnOutput ops)
    (hca : OwnCache ops) : Inv ops (play ops) := by
  induction ops using List.reverseRecOn with
  | nil => exact inv_nil
  | append_singleton ops o ih =>
    have hsub : ∀ x ∈ ops, x ∈ ops ++ [o] := fun x hx => List.mem_append_left _ hx
    have hlast : o ∈ ops ++ [o] := by simp
    have I : Inv ops (play ops) := by
      apply ih
      · exact (List.pairwise_append.1 hord).1
      · exact fun t g c m h => hnr t g c m (hsub _ h)
      · exact fun t r h => hrel t r (hsub _ h)
      · exact fun t r t' r' h h' => hout t r t' r' (hsub _ h) (hsub _ h')
      · exact fun t r t' r' h h' => hca t r t' r' (hsub _ h) (hsub _ h')
    have htime : ∀ x ∈ ops, x.1 ≤ o.1 := fun x hx => (List.pairwise_append.1 hord).2.2 x hx o (by simp)
    have hct : ∀ k db m, (play ops).cache k = some (db, m) → m ≤ o.1 := by
      intro k db m h
      obtain ⟨x, hx, hm⟩ := I.cacheTime k db m h
      exact le_trans hm (htime x hx)
    have hrem : NoRemoveOut (ops ++ [o]) → NoRemoveOut ops := fun h t k hk => h t k (hsub _ hk)
    rw [play_snoc]
    generalize play ops = s at *
    obtain ⟨now, op⟩ := o
    dsimp only at *
    cases op with
    | restore g c m => exact absurd hlast (hnr now g c m)
    | edit g c =>
      have hrun : ∀ {t r}, (t, Op.run r) ∈ ops ++ [(now, Op.edit g c)] → (t, Op.run r) ∈ ops :=
        fun h => mem_snoc_run h (by intro r' h; cases h)
      constructor
      · intro g'
        rw [contentOf_snoc]
        dsimp only [step]
        rw [put_at]
        by_cases hg : g' = g
        · rw [if_pos hg, if_pos hg.symm]; rfl
        · rw [if_neg hg, if_neg (fun h => hg h.symm)]; exact I.content g'
      · intro k db m h
        obtain ⟨x, hx, hm⟩ := I.cacheTime k db m h
        exact ⟨x, hsub x hx, hm⟩
      · intro k v h
        obtain ⟨t, r, hr, hk⟩ := I.cacheRun k v h
        exact ⟨t, r, hsub _ hr, hk⟩
      · intro t r db m c' mt hr hcache hgds hlt db' hdb
        dsimp only [step] at hgds hcache hdb
        rw [put_at] at hgds
        by_cases hg : r.gds = g
        · rw [if_pos hg] at hgds
          have : mt = now := by injection hgds with h; exact (congrArg Prod.snd h).symm
          have := hct _ _ _ hcache
          omega
        · rw [if_neg hg] at hgds
          exact I.fresh t r db m c' mt (hrun hr) hcache hgds hlt db' hdb
      · intro hnr t r v hr hc
        exact I.present (hrem hnr) t r v (hrun hr) hc
    | removeGds g =>
      have hrun : ∀ {t r}, (t, Op.run r) ∈ ops ++ [(now, Op.removeGds g)] → (t, Op.run r) ∈ ops :=
        fun h => mem_snoc_run h (by intro r' h; cases h)
      constructor
      · intro g'
        rw [contentOf_snoc]
        dsimp only [step]
        rw [put_at]
        by_cases hg : g' = g
        · rw [if_pos hg, if_pos hg.symm]; rfl
        · rw [if_neg hg, if_neg (fun h => hg h.symm)]; exact I.content g'
      · intro k db m h
        obtain ⟨x, hx, hm⟩ := I.cacheTime k db m h
        exact ⟨x, hsub x hx, hm⟩
      · intro k v h
        obtain ⟨t, r, hr, hk⟩ := I.cacheRun k v h
        exact ⟨t, r, hsub _ hr, hk⟩
      · intro t r db m c' mt hr hcache hgds hlt db' hdb
        dsimp only [step] at hgds hcache hdb
        rw [put_at] at hgds
        by_cases hg : r.gds = g
        · rw [if_pos hg] at hgds; cases hgds
        · rw [if_neg hg] at hgds
          exact I.fresh t r db m c' mt (hrun hr) hcache hgds hlt db' hdb
      · intro hnr t r v hr hc
        exact I.present (hrem hnr) t r v (hrun hr) hc
    | removeOut k0 =>
      have hrun : ∀ {t r}, (t, Op.run r) ∈ ops ++ [(now, Op.removeOut k0)] → (t, Op.run r) ∈ ops :=
        fun h => mem_snoc_run h (by intro r' h; cases h)
      constructor
      · intro g'
        rw [contentOf_snoc]
        exact I.content g'
      · intro k db m h
        obtain ⟨x, hx, hm⟩ := I.cacheTime k db m h
        exact ⟨x, hsub x hx, hm⟩
      · intro k v h
        obtain ⟨t, r, hr, hk⟩ := I.cacheRun k v h
        exact ⟨t, r, hsub _ hr, hk⟩
      · intro t r db m c' mt hr hcache hgds hlt db' hdb
        dsimp only [step] at hgds hcache hdb
        rw [put_at] at hdb
        by_cases hk : r.outKey = k0
        · rw [if_pos hk] at hdb; cases hdb
        · rw [if_neg hk] at hdb
          exact I.fresh t r db m c' mt (hrun hr) hcache hgds hlt db' hdb
      · intro hnr
        exact absurd hlast (hnr now k0)
    | removeCache k0 =>
      have hrun : ∀ {t r}, (t, Op.run r) ∈ ops ++ [(now, Op.removeCache k0)] → (t, Op.run r) ∈ ops :=
        fun h => mem_snoc_run h (by intro r' h; cases h)
      have hold : ∀ k v, put s.cache k0 none k = some v → s.cache k = some v := by
        intro k v h
        rw [put_at] at h
        by_cases hk : k = k0
        · rw [if_pos hk] at h; cases h
        · rwa [if_neg hk] at h
      constructor
      · intro g'
        rw [contentOf_snoc]
        exact I.content g'
      · intro k db m h
        obtain ⟨x, hx, hm⟩ := I.cacheTime k db m (hold _ _ h)
        exact ⟨x, hsub x hx, hm⟩
      · intro k v h
        obtain ⟨t, r, hr, hk⟩ := I.cacheRun k v (hold _ _ h)
        exact ⟨t, r, hsub _ hr, hk⟩
      · intro t r db m c' mt hr hcache hgds hlt db' hdb
        exact I.fresh t r db m c' mt (hrun hr) (hold _ _ hcache) hgds hlt db' hdb
      · intro hnr t r v hr hc
        exact I.present (hrem hnr) t r v (hrun hr) (hold _ _ hc)
    | run r0 =>
      have hr0 := hrel now r0 hlast
      have hcontent : ∀ g, contentOf g (ops ++ [(now, Op.run r0)]) = contentOf g ops := fun g => contentOf_snoc g ops _
      -- nothing changes
      have same : (∀ t v, (t, Op.run r0) ∈ ops ++ [(now, Op.run r0)] → s.cache r0.cacheKey = some v →
          ∃ t' r', (t', Op.run r') ∈ ops ∧ r0.cacheKey = r'.cacheKey) → Inv (ops ++ [(now, Op.run r0)]) s := by
        intro _
        constructor
        · intro g'; rw [hcontent]; exact I.content g'
        · intro k db m h
          obtain ⟨x, hx, hm⟩ := I.cacheTime k db m h
          exact ⟨x, hsub x hx, hm⟩
        · intro k v h
          obtain ⟨t, r, hr, hk⟩ := I.cacheRun k v h
          exact ⟨t, r, hsub _ hr, hk⟩
        · intro t r db m c' mt hr hcache hgds hlt db' hdb
          obtain ⟨t', r', hr', hk⟩ := I.cacheRun _ _ hcache
          obtain ⟨h1, h2, h3, h4⟩ := key_out hout hca hr (hsub _ hr') hk
          rw [h3, h4]
          exact I.fresh t' r' db m c' mt hr' (hk ▸ hcache) (h2 ▸ hgds) hlt db' (h1 ▸ hdb)
        · intro hnr t r v hr hc
          obtain ⟨t', r', hr', hk⟩ := I.cacheRun _ _ hc
          obtain ⟨h1, h2, h3, h4⟩ := key_out hout hca hr (hsub _ hr') hk
          rw [h1]
          exact I.present (hrem hnr) t' r' v hr' (hk ▸ hc)
      have same := same (fun t v _ h => I.cacheRun _ v h)
      dsimp only [step]
      cases hg0 : s.gds r0.gds with
      | none =>
        have : createLvsdb r0 now s = (s, .error "GDS does not exist") := by unfold createLvsdb; rw [hg0]
        rw [this]
        exact same
      | some v =>
        obtain ⟨c, m⟩ := v
        cases hneed : lvsNeeded r0 m s with
        | false => rw [run_hit r0 now s c m hg0 hneed]; exact same
        | true =>
          rw [run_miss r0 now s c m hg0 hr0.1 hneed, hr0.2]
          dsimp only
          -- the new cache
          have hcc : ∀ k v, (if r0.cacheLvs then put s.cache r0.cacheKey (some (⟨c, r0.cell, r0.setup⟩, now)) else s.cache) k =
              some v → s.cache k = some v ∨ (k = r0.cacheKey ∧ v.2 = now) := by
            intro k v h
            split at h
            · rw [put_at] at h
              by_cases hk : k = r0.cacheKey
              · rw [if_pos hk] at h
                injection h with h
                exact Or.inr ⟨hk, by rw [← h]⟩
              · rw [if_neg hk] at h; exact Or.inl h
            · exact Or.inl h
          constructor
          · intro g'; rw [hcontent]; exact I.content g'
          · intro k db m h
            rcases hcc _ _ h with h | ⟨-, h⟩
            · obtain ⟨x, hx, hm⟩ := I.cacheTime k db m h
              exact ⟨x, hsub x hx, hm⟩
            · exact ⟨_, hlast, le_of_eq h⟩
          · intro k v h
            rcases hcc _ _ h with h | ⟨h, -⟩
            · obtain ⟨t, r, hr, hk⟩ := I.cacheRun k v h
              exact ⟨t, r, hsub _ hr, hk⟩
            · exact ⟨now, r0, hlast, h⟩
          · intro t r db m c' mt hr hcache hgds hlt db' hdb
            dsimp only at hcache hgds hdb
            rw [put_at] at hdb
            by_cases hk : r.outKey = r0.outKey
            · rw [if_pos hk] at hdb
              obtain ⟨h1, h2, h3⟩ := out_same hout hr hlast hk
              injection hdb with hdb
              rw [h1] at hgds
              replace hgds : s.gds r0.gds = some (c', mt) := hgds
              rw [hg0] at hgds
              injection hgds with hgds
              have hcc' : c = c' := congrArg Prod.fst hgds
              rw [← hdb, h2, h3, hcc']
            · rw [if_neg hk] at hdb
              rcases hcc _ _ hcache with h | ⟨h, -⟩
              · exact same.fresh t r db m c' mt hr h hgds hlt db' hdb
              · exact absurd (key_out hout hca hr hlast h).1 hk
          · intro hnr t r v hr hc
            dsimp only at hc ⊢
            rw [put_at]
            by_cases hk : r.outKey = r0.outKey
            · rw [if_pos hk]; rfl
            · rw [if_neg hk]
              rcases hcc _ _ hc with h | ⟨h, -⟩
              · exact same.present hnr t r v hr h
              · exact absurd (key_out hout hca hr hlast h).1 hk

/-! ### Theorems -/

/-- **C36 (partial).** In every history of writes and deletions of layouts, runs, deletions of databases in output and cache
directories, whenever a run obtains an LVS database, that database was made from the content which the layout has at that run,
for the cell of the run, with the LVS script and schematic of the run.

Missing from the full property: the hypotheses.  The theorems below show that none of them can be left out. -/
theorem lvsdb_fresh_partial (pre post : List (Nat × Op)) (now : Nat) (r : Run)
    (hord : Ordered (pre ++ (now, .run r) :: post)) (hnr : NoRestore (pre ++ (now, .run r) :: post))
    (hrel : Reliable (pre ++ (now, .run r) :: post)) (hout : OwnOutput (pre ++ (now, .run r) :: post))
    (hca : OwnCache (pre ++ (now, .run r) :: post)) (db : Db) (h : (createLvsdb r now (play pre)).2 = .ok db) :
    contentOf r.gds pre = some db.content ∧ db.cell = r.cell ∧ db.setup = r.setup := by
  have hsub : ∀ x ∈ pre, x ∈ pre ++ (now, .run r) :: post := fun x hx => List.mem_append_left _ hx
  have hme : (now, Op.run r) ∈ pre ++ (now, .run r) :: post := by simp
  have I : Inv pre (play pre) := inv_play pre (List.pairwise_append.1 hord).1 (fun t g c m h => hnr t g c m (hsub _ h))
    (fun t r h => hrel t r (hsub _ h)) (fun t r t' r' h h' => hout t r t' r' (hsub _ h) (hsub _ h'))
    (fun t r t' r' h h' => hca t r t' r' (hsub _ h) (hsub _ h'))
  generalize play pre = s at *
  rw [← I.content r.gds]
  cases hg : s.gds r.gds with
  | none =>
    have : createLvsdb r now s = (s, .error "GDS does not exist") := by unfold createLvsdb; rw [hg]
    rw [this] at h
    cases h
  | some v =>
    obtain ⟨c, m⟩ := v
    cases hn : lvsNeeded r m s with
    | true =>
      rw [run_miss r now s c m hg (hrel now r hme).1 hn] at h
      injection h with h
      rw [← h]
      exact ⟨rfl, rfl, rfl⟩
    | false =>
      rw [run_hit r now s c m hg hn] at h
      obtain ⟨db0, t0, hc, hlt⟩ := hit_inv hn
      obtain ⟨t', r', hr', hk⟩ := I.cacheRun _ _ hc
      obtain ⟨h1, h2, h3, h4⟩ := key_out hout hca hme (hsub _ hr') hk
      dsimp only [read] at h
      cases ho : s.out r.outKey with
      | none => rw [ho] at h; cases h
      | some db' =>
        rw [ho] at h
        injection h with h
        have := I.fresh t' r' db0 t0 c m hr' (hk ▸ hc) (h2 ▸ hg) hlt db' (h1 ▸ ho)
        rw [← h, this, h3, h4]
        exact ⟨rfl, rfl, rfl⟩

/-- **C36 (partial).** If moreover no database is deleted from an output directory, then each run whose layout exists obtains a
database. -/
theorem lvsdb_found_partial (pre post : List (Nat × Op)) (now : Nat) (r : Run)
    (hord : Ordered (pre ++ (now, .run r) :: post)) (hnr : NoRestore (pre ++ (now, .run r) :: post))
    (hrel : Reliable (pre ++ (now, .run r) :: post)) (hout : OwnOutput (pre ++ (now, .run r) :: post))
    (hca : OwnCache (pre ++ (now, .run r) :: post)) (hkeep : NoRemoveOut pre) (c : Nat)
    (h : contentOf r.gds pre = some c) : (createLvsdb r now (play pre)).2 = .ok ⟨c, r.cell, r.setup⟩ := by
  have hsub : ∀ x ∈ pre, x ∈ pre ++ (now, .run r) :: post := fun x hx => List.mem_append_left _ hx
  have hme : (now, Op.run r) ∈ pre ++ (now, .run r) :: post := by simp
  have I : Inv pre (play pre) := inv_play pre (List.pairwise_append.1 hord).1 (fun t g c m h => hnr t g c m (hsub _ h))
    (fun t r h => hrel t r (hsub _ h)) (fun t r t' r' h h' => hout t r t' r' (hsub _ h) (hsub _ h'))
    (fun t r t' r' h h' => hca t r t' r' (hsub _ h) (hsub _ h'))
  have hfresh := lvsdb_fresh_partial pre post now r hord hnr hrel hout hca
  suffices hs : ∃ db, (createLvsdb r now (play pre)).2 = .ok db by
    obtain ⟨db, hdb⟩ := hs
    obtain ⟨h1, h2, h3⟩ := hfresh db hdb
    rw [h] at h1
    injection h1 with h1
    rw [hdb, h1, ← h2, ← h3]
  generalize play pre = s at *
  rw [← I.content r.gds] at h
  cases hg : s.gds r.gds with
  | none => rw [hg] at h; cases h
  | some v =>
    obtain ⟨c', m⟩ := v
    cases hn : lvsNeeded r m s with
    | true => exact ⟨_, by rw [run_miss r now s c' m hg (hrel now r hme).1 hn]⟩
    | false =>
      obtain ⟨db0, t0, hc, hlt⟩ := hit_inv hn
      obtain ⟨t', r', hr', hk⟩ := I.cacheRun _ _ hc
      obtain ⟨h1, -, -, -⟩ := key_out hout hca hme (hsub _ hr') hk
      have hp := I.present hkeep t' r' _ hr' (hk ▸ hc)
      rw [← h1] at hp
      obtain ⟨db', hdb'⟩ := Option.isSome_iff_exists.1 hp
      refine ⟨db', ?_⟩
      rw [run_hit r now s c' m hg hn]
      dsimp only [read]
      rw [hdb']

/-- **C36.** With `--cache-lvs false` and a KLayout that writes the database, the database is that of the layout as it is, after
any history at all. -/
theorem uncached_fresh (s : State) (now : Nat) (r : Run) (c m : Nat) (hg : s.gds r.gds = some (c, m)) (hc : r.cacheLvs = false)
    (hw : r.lvsWrites = true) : (createLvsdb r now s).2 = .ok ⟨c, r.cell, r.setup⟩ := by
  have hn : lvsNeeded r m s = true := by unfold lvsNeeded; rw [hc]; rfl
  rw [run_miss r now s c m hg hw hn]

/-! ### Counterexamples -/

/-- A run of the examples. -/
def exRun : Run := ⟨"/out".toList, none, "sky130A".toList, "/a/inv.gds".toList, "inv".toList, 1, true, true, none⟩

/-- What is violated: the database obtained by the last run differs from the one made from the layout at that time. -/
def Stale (pre : List (Nat × Op)) (now : Nat) (r : Run) : Prop :=
  ∃ db c m, (createLvsdb r now (play pre)).2 = .ok db ∧ (play pre).gds r.gds = some (c, m) ∧ (db.content ≠ c ∨ db.setup ≠ r.setup)

/-- **C36 is false**: two layouts of the same name in different directories, with the default options.  (Everything holds but
`OwnOutput`.) -/
theorem stale_same_name : Stale
    [(0, .edit "/a/inv.gds".toList 7), (1, .edit "/b/inv.gds".toList 8), (2, .run exRun),
     (3, .run { exRun with gds := "/b/inv.gds".toList })] 4 exRun :=
  ⟨⟨8, "inv".toList, 1⟩, 7, 0, by decide +kernel, by decide +kernel, by decide +kernel⟩

/-- **C36 is false**: the schematic or the LVS script changes.  (Everything holds but `OwnOutput`.) -/
theorem stale_setup : Stale [(0, .edit "/a/inv.gds".toList 7), (2, .run exRun)] 4 { exRun with setup := 2 } :=
  ⟨⟨7, "inv".toList, 1⟩, 7, 0, by decide +kernel, by decide +kernel, by decide +kernel⟩

/-- **C36 is false**: two output directories share a cache directory.  (Everything holds but `OwnCache`.) -/
theorem stale_shared_cache : Stale
    [(0, .edit "/a/inv.gds".toList 7), (1, .run { exRun with cacheDir := some "/c".toList }), (2, .edit "/a/inv.gds".toList 8),
     (3, .run { exRun with cacheDir := some "/c".toList, base := "/out2".toList })] 4 { exRun with cacheDir := some "/c".toList } :=
  ⟨⟨7, "inv".toList, 1⟩, 8, 2, by decide +kernel, by decide +kernel, by decide +kernel⟩

/-- **C36 is false**: KLayout fails once; the old database is put in the cache and used from then on. -/
theorem stale_lvs_failure : Stale
    [(0, .edit "/a/inv.gds".toList 7), (1, .run exRun), (2, .edit "/a/inv.gds".toList 8), (3, .run { exRun with lvsWrites := false })]
    4 exRun :=
  ⟨⟨7, "inv".toList, 1⟩, 8, 2, by decide +kernel, by decide +kernel, by decide +kernel⟩

/-- **C36 is false**: a layout put in place with an older modification time. -/
theorem stale_old_mtime : Stale
    [(0, .edit "/a/inv.gds".toList 7), (2, .run exRun), (3, .restore "/a/inv.gds".toList 8 1)] 4 exRun :=
  ⟨⟨7, "inv".toList, 1⟩, 8, 1, by decide +kernel, by decide +kernel, by decide +kernel⟩

/-- **C36 is false**: the layout is written while KLayout LVS is running. -/
theorem stale_concurrent_edit : Stale
    [(0, .edit "/a/inv.gds".toList 7), (3, .run { exRun with meanwhile := some (8, 2) })] 4 exRun :=
  ⟨⟨7, "inv".toList, 1⟩, 8, 2, by decide +kernel, by decide +kernel, by decide +kernel⟩

/-- **C36**: a deleted output is not restored from the cache: a run after a run of the same layout fails. -/
theorem removed_output_fails : (createLvsdb exRun 4 (play
    [(0, .edit "/a/inv.gds".toList 7), (2, .run exRun), (3, .removeOut ("/out".toList, "inv".toList, "inv".toList))])).2 =
    .error "Unable to open file" := by decide +kernel

/-! ### Non-vacuity -/

/-- A history with edits, runs on two cells and deletions: the hypotheses hold. -/
def exHistory : List (Nat × Op) :=
  [(0, .edit "/a/inv.gds".toList 7), (1, .run exRun), (2, .run { exRun with cell := "buf".toList }), (2, .edit "/a/inv.gds".toList 8),
   (2, .removeCache ("/out/.kpex_cache".toList, "sky130A".toList, "/a/inv.gds".toList, "buf".toList)), (2, .run exRun)]

example : Ordered (exHistory ++ (5, .run exRun) :: []) ∧ NoRestore (exHistory ++ (5, .run exRun) :: []) ∧
    Reliable (exHistory ++ (5, .run exRun) :: []) ∧ OwnOutput (exHistory ++ (5, .run exRun) :: []) ∧
    OwnCache (exHistory ++ (5, .run exRun) :: []) ∧ NoRemoveOut exHistory ∧ contentOf exRun.gds exHistory = some 8 := by
  refine ⟨by unfold Ordered exHistory; decide, ?_, ?_, ?_, ?_, ?_, by decide +kernel⟩
  · intro t g c m h; simp [exHistory] at h
  · intro t r h
    simp only [exHistory, List.cons_append, List.nil_append, List.mem_cons, Prod.mk.injEq, Op.run.injEq, reduceCtorEq, and_false,
      false_or, List.not_mem_nil, or_false] at h
    rcases h with ⟨-, rfl⟩ | ⟨-, rfl⟩ | ⟨-, rfl⟩ | ⟨-, rfl⟩ <;> exact ⟨rfl, rfl⟩
  · intro t r t' r' h h' _ _ _
    simp only [exHistory, List.cons_append, List.nil_append, List.mem_cons, Prod.mk.injEq, Op.run.injEq, reduceCtorEq, and_false,
      false_or, List.not_mem_nil, or_false] at h h'
    rcases h with ⟨-, rfl⟩ | ⟨-, rfl⟩ | ⟨-, rfl⟩ | ⟨-, rfl⟩ <;> rcases h' with ⟨-, rfl⟩ | ⟨-, rfl⟩ | ⟨-, rfl⟩ | ⟨-, rfl⟩ <;>
      exact ⟨rfl, rfl⟩
  · apply ownCache_of_default
    intro t r h
    simp only [exHistory, List.cons_append, List.nil_append, List.mem_cons, Prod.mk.injEq, Op.run.injEq, reduceCtorEq, and_false,
      false_or, List.not_mem_nil, or_false] at h
    rcases h with ⟨-, rfl⟩ | ⟨-, rfl⟩ | ⟨-, rfl⟩ | ⟨-, rfl⟩ <;> rfl
  · intro t k h; simp [exHistory] at h

example : (createLvsdb exRun 5 (play exHistory)).2 = .ok ⟨8, "inv".toList, 1⟩ := by decide +kernel

end Verif.LvsCache
