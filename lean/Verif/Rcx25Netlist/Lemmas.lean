import Verif.Rcx25Netlist.Model
import Verif.Maxwell.Lemmas

/-! # Helper lemmas about the 2.5D netlist expander -/

namespace Verif.Rcx25Netlist

open Netlist Summary

/-- The name table knows exactly the nets of the circuit. -/
structure TblInv (st : Circuit × Dict String Nat) : Prop where
  sound : ∀ s n, st.2.get? s = some n → st.1.nets[n]? = some s
  complete : ∀ s ∈ st.1.nets, ∃ n, st.2.get? s = some n

theorem inv_start (c : Circuit) : TblInv (c, c.name2net) :=
  ⟨fun _ _ h => Maxwell.name2net_get h, fun _ h => Maxwell.name2net_isSome h⟩

/-- `st'` arises from `st` by adding nets of new, distinct names that satisfy `P`. -/
structure Grows (P : String → Prop) (st st' : Circuit × Dict String Nat) : Prop where
  inv : TblInv st'
  devices : st'.1.devices = st.1.devices
  nets : ∃ new, st'.1.nets = st.1.nets ++ new ∧ new.Nodup ∧ (∀ s ∈ new, s ∉ st.1.nets) ∧ ∀ s ∈ new, P s

theorem Grows.refl {P : String → Prop} {st : Circuit × Dict String Nat} (h : TblInv st) : Grows P st st :=
  ⟨h, rfl, [], by simp, by simp, by simp, by simp⟩

theorem Grows.trans {P : String → Prop} {a b c : Circuit × Dict String Nat} (h1 : Grows P a b) (h2 : Grows P b c) :
    Grows P a c := by
  obtain ⟨_, d1, n1, e1, u1, f1, p1⟩ := h1
  obtain ⟨i2, d2, n2, e2, u2, f2, p2⟩ := h2
  refine ⟨i2, d2.trans d1, n1 ++ n2, by rw [e2, e1, List.append_assoc], ?_, ?_, ?_⟩
  · rw [List.nodup_append]
    refine ⟨u1, u2, ?_⟩
    rintro x hx y hy rfl
    apply f2 x hy
    rw [e1]; simp [hx]
  · intro s hs
    rcases List.mem_append.1 hs with h | h
    · exact f1 s h
    · intro hh
      apply f2 s h
      rw [e1]; simp [hh]
  · intro s hs
    rcases List.mem_append.1 hs with h | h
    · exact p1 s h
    · exact p2 s h

theorem Grows.mono {P Q : String → Prop} {a b : Circuit × Dict String Nat} (h : Grows P a b) (hpq : ∀ s, P s → Q s) :
    Grows Q a b := by
  obtain ⟨i, d, n, e, u, f, p⟩ := h
  exact ⟨i, d, n, e, u, f, fun s hs => hpq s (p s hs)⟩

theorem addNet_spec {P : String → Prop} {st : Circuit × Dict String Nat} (h : TblInv st) (name : String) (hp : P name) :
    Grows P st (addNetIfNeeded st name) ∧ name ∈ (addNetIfNeeded st name).1.nets := by
  unfold addNetIfNeeded
  by_cases hh : st.2.has name = true
  · rw [if_pos hh]
    refine ⟨Grows.refl h, ?_⟩
    unfold Dict.has at hh
    obtain ⟨n, hn⟩ := Option.isSome_iff_exists.1 hh
    exact List.mem_of_getElem? (h.sound _ _ hn)
  · rw [if_neg hh]
    have hnot : name ∉ st.1.nets := by
      intro hm
      obtain ⟨n, hn⟩ := h.complete _ hm
      apply hh
      unfold Dict.has; rw [hn]; rfl
    simp only [Circuit.createNet]
    refine ⟨⟨⟨?_, ?_⟩, rfl, [name], rfl, by simp, ?_, ?_⟩, by simp⟩
    · intro s n hs
      simp only [Dict.get?_set] at hs
      split at hs
      · rename_i he
        cases hs; subst he
        simp
      · have := h.sound s n hs
        rw [List.getElem?_append_left (List.getElem?_eq_some_iff.1 this).1]
        exact this
    · intro s hs
      simp only [Dict.get?_set]
      rcases List.mem_append.1 hs with hs | hs
      · split
        · exact ⟨_, rfl⟩
        · exact h.complete s hs
      · simp only [List.mem_singleton] at hs
        subst hs
        simp
    · simpa using hnot
    · simpa using hp

theorem Grows.mem {P : String → Prop} {a b : Circuit × Dict String Nat} (h : Grows P a b) {s : String}
    (hs : s ∈ a.1.nets) : s ∈ b.1.nets := by
  obtain ⟨_, _, n, e, _⟩ := h
  rw [e]; simp [hs]

theorem addNets_spec {P : String → Prop} (items : List (NetCoupleKey × ℚ))
    (hp : ∀ kv ∈ items, P kv.1.net1 ∧ P kv.1.net2) :
    ∀ {st : Circuit × Dict String Nat}, TblInv st →
      Grows P st (addNets st items) ∧
        ∀ kv ∈ items, kv.1.net1 ∈ (addNets st items).1.nets ∧ kv.1.net2 ∈ (addNets st items).1.nets := by
  induction items with
  | nil => intro st h; exact ⟨Grows.refl h, by simp⟩
  | cons kv items ih =>
    intro st h
    obtain ⟨g1, m1⟩ := addNet_spec (P := P) h kv.1.net1 (hp kv (by simp)).1
    obtain ⟨g2, m2⟩ := addNet_spec (P := P) g1.inv kv.1.net2 (hp kv (by simp)).2
    obtain ⟨g3, m3⟩ := ih (fun kv' h' => hp kv' (by simp [h'])) g2.inv
    have he : addNets st (kv :: items) = addNets (addNetIfNeeded (addNetIfNeeded st kv.1.net1) kv.1.net2) items := rfl
    rw [he]
    refine ⟨(g1.trans g2).trans g3, ?_⟩
    intro kv' h'
    rcases List.mem_cons.1 h' with h' | h'
    · subst h'
      exact ⟨g3.mem (g2.mem m1), g3.mem m2⟩
    · exact m3 kv' h'

/-- `mapM` over a list in `Except` that succeeds everywhere. -/
theorem mapM_forall₂ {α β : Type} {f : α → Except String β} {R : β → α → Prop} (l : List α)
    (h : ∀ x ∈ l, ∃ y, f x = .ok y ∧ R y x) : ∃ ys, l.mapM f = .ok ys ∧ List.Forall₂ R ys l := by
  induction l with
  | nil => exact ⟨[], rfl, .nil⟩
  | cons a l ih =>
    obtain ⟨y, hy, hr⟩ := h a (by simp)
    obtain ⟨ys, hys, hrs⟩ := ih fun x hx => h x (by simp [hx])
    refine ⟨y :: ys, ?_, .cons hr hrs⟩
    rw [List.mapM_cons, hy, hys]; rfl

theorem extName_inj {i j : Nat} (h : "ext_" ++ toString (i + 1) = "ext_" ++ toString (j + 1)) : i = j := by
  have h' := congrArg String.toList h
  simp only [String.toList_append] at h'
  have := dec_inj (List.append_cancel_left h')
  omega

theorem forall₂_zipIdx_names {l : List (NetCoupleKey × ℚ)} {ds : List Device} {k : Nat}
    (h : List.Forall₂ (fun (d : Device) (x : (NetCoupleKey × ℚ) × Nat) => d.name = "ext_" ++ toString (x.2 + 1)) ds
      (l.zipIdx k)) : (ds.map Device.name) = (List.range' k ds.length).map fun i => "ext_" ++ toString (i + 1) := by
  induction l generalizing ds k with
  | nil => cases h; rfl
  | cons a l ih =>
    rw [List.zipIdx_cons] at h
    cases h with
    | cons h1 h2 =>
      simp only [List.map_cons, List.length_cons, List.range'_succ, h1, ih h2]

theorem forall₂_zipIdx_fst {l : List (NetCoupleKey × ℚ)} {ds : List Device} {k : Nat}
    {R : Device → (NetCoupleKey × ℚ) → Prop}
    (h : List.Forall₂ (fun (d : Device) (x : (NetCoupleKey × ℚ) × Nat) => R d x.1) ds (l.zipIdx k)) :
    List.Forall₂ R ds l := by
  induction l generalizing ds k with
  | nil => cases h; exact .nil
  | cons a l ih =>
    rw [List.zipIdx_cons] at h
    cases h with
    | cons h1 h2 => exact .cons h1 (ih h2)

end Verif.Rcx25Netlist
