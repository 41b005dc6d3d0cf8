import Verif.Lemmas.Partition
/-! Lemmas about the neighbour search on meshes. -/
namespace MarEx
open Spec (Hops HopsIn)

variable {n : Nat} {nbr : Fin 3 → Fin n → Option (Fin n)}

theorem Hops.trans {k m : Nat} {p q r : Fin n} (a : Hops nbr k p q) (b : Hops nbr m q r) : Hops nbr (k + m) p r := by
  induction a with
  | zero => simpa using b
  | succ d h _ ih => rw [show ∀ k, k + 1 + m = (k + m) + 1 by intro k; omega]; exact Hops.succ d h (ih b)

theorem Hops.one {p q : Fin n} {d : Fin 3} (h : nbr d p = some q) : Hops nbr 1 p q := Hops.succ d h (Hops.zero q)

/-- `fr'` extends `fr`. -/
def Ext (fr fr' : Fin n → Option Nat) : Prop := ∀ q x, fr q = some x → fr' q = some x

theorem Ext.trans {a b c : Fin n → Option Nat} (h1 : Ext a b) (h2 : Ext b c) : Ext a c := fun q x h => h2 q x (h1 q x h)

theorem ext_frontPass (a : Nat) (fr : Fin n → Option Nat) (d : Fin 3) : Ext fr (frontPass nbr a fr d) := by
  intro q x h; unfold frontPass; rw [h]

theorem frontPass_some {a : Nat} {fr : Fin n → Option Nat} {d : Fin 3} {q : Fin n} {x : Nat} (h : frontPass nbr a fr d q = some x) :
    fr q = some x ∨ (x = a ∧ ∃ p, fr p = some a ∧ nbr d p = some q) := by
  unfold frontPass at h
  split at h
  · left; rename_i y hy; rw [hy]; exact h
  · right
    split at h
    · rename_i hany
      rw [List.any_eq_true] at hany
      obtain ⟨p, _, hp⟩ := hany
      simp only [Bool.and_eq_true, beq_iff_eq] at hp
      exact ⟨by simpa using h.symm, p, hp.1, hp.2⟩
    · cases h

theorem frontPass_reach {a : Nat} {fr : Fin n → Option Nat} {d : Fin 3} {p q : Fin n} (hp : fr p = some a) (hq : nbr d p = some q) :
    (frontPass nbr a fr d q).isSome := by
  unfold frontPass
  split
  · rfl
  · rw [if_pos]
    · rfl
    · rw [List.any_eq_true]
      exact ⟨p, List.mem_finRange _, by simp [hp, hq]⟩

theorem ext_foldl_pass (a : Nat) (ds : List (Fin 3)) (fr : Fin n → Option Nat) : Ext fr (ds.foldl (frontPass nbr a) fr) := by
  induction ds generalizing fr with
  | nil => exact fun _ _ h => h
  | cons d ds ih => exact (ext_frontPass a fr d).trans (ih _)

theorem foldl_pass_some (a : Nat) (ds : List (Fin 3)) (fr : Fin n → Option Nat) {q : Fin n} {x : Nat}
    (h : ds.foldl (frontPass nbr a) fr q = some x) :
    ∃ p m, fr p = some x ∧ Hops nbr m p q ∧ m ≤ (if x = a then ds.length else 0) := by
  induction ds generalizing fr with
  | nil => exact ⟨q, 0, h, Hops.zero q, by simp⟩
  | cons d ds ih =>
    obtain ⟨p, m, hp, hm, hle⟩ := ih _ h
    rcases frontPass_some hp with h1 | ⟨e, p0, h1, h2⟩
    · refine ⟨p, m, h1, hm, ?_⟩
      split at hle <;> rename_i e
      · rw [if_pos e, List.length_cons]; omega
      · rw [if_neg e]; omega
    · refine ⟨p0, 1 + m, by rw [e]; exact h1, Hops.trans (Hops.one h2) hm, ?_⟩
      rw [if_pos e] at hle ⊢
      rw [List.length_cons]; omega

theorem foldl_pass_reach (a : Nat) (ds : List (Fin 3)) (fr : Fin n → Option Nat) {d : Fin 3} (hd : d ∈ ds) {p q : Fin n}
    (hp : fr p = some a) (hq : nbr d p = some q) : (ds.foldl (frontPass nbr a) fr q).isSome := by
  induction ds generalizing fr with
  | nil => cases hd
  | cons e ds ih =>
    rcases List.mem_cons.mp hd with h | h
    · subst h
      have := frontPass_reach hp hq
      obtain ⟨x, hx⟩ := Option.isSome_iff_exists.mp this
      rw [List.foldl_cons, ext_foldl_pass a ds _ q x hx]; rfl
    · exact ih _ h (ext_frontPass a fr e p a hp)

theorem ext_foldl_round (ps : List Nat) (fr : Fin n → Option Nat) :
    Ext fr (ps.foldl (fun fr p => (List.finRange 3).foldl (frontPass nbr p) fr) fr) := by
  induction ps generalizing fr with
  | nil => exact fun _ _ h => h
  | cons d ds ih => exact (ext_foldl_pass d _ fr).trans (ih _)

theorem foldl_round_some (ps : List Nat) (fr : Fin n → Option Nat) {q : Fin n} {x : Nat}
    (h : ps.foldl (fun fr p => (List.finRange 3).foldl (frontPass nbr p) fr) fr q = some x) :
    ∃ p m, fr p = some x ∧ Hops nbr m p q ∧ m ≤ 3 * ps.count x := by
  induction ps generalizing fr with
  | nil => exact ⟨q, 0, h, Hops.zero q, by simp⟩
  | cons a ps ih =>
    obtain ⟨p, m, hp, hm, hle⟩ := ih _ h
    obtain ⟨p0, m0, h0, h1, h2⟩ := foldl_pass_some a _ fr hp
    refine ⟨p0, m0 + m, h0, Hops.trans h1 hm, ?_⟩
    rw [List.count_cons]
    by_cases e : x = a
    · rw [if_pos e] at h2
      rw [if_pos (by simp [e])]
      simp only [List.length_finRange] at h2; omega
    · rw [if_neg e] at h2
      omega

theorem foldl_round_reach (ps : List Nat) (fr : Fin n → Option Nat) {a : Nat} (ha : a ∈ ps) {d : Fin 3} {p q : Fin n}
    (hp : fr p = some a) (hq : nbr d p = some q) :
    (ps.foldl (fun fr p => (List.finRange 3).foldl (frontPass nbr p) fr) fr q).isSome := by
  induction ps generalizing fr with
  | nil => cases ha
  | cons e ps ih =>
    by_cases h : a = e
    · subst h
      have := foldl_pass_reach a (List.finRange 3) fr (List.mem_finRange d) hp hq
      obtain ⟨x, hx⟩ := Option.isSome_iff_exists.mp this
      rw [List.foldl_cons, ext_foldl_round ps _ q x hx]; rfl
    · rcases List.mem_cons.mp ha with h1 | h1
      · exact absurd h1 h
      · exact ih _ h1 (ext_foldl_pass e _ fr p a hp)

theorem frontRound_some {nPar : Nat} {fr : Fin n → Option Nat} {q : Fin n} {x : Nat} (h : frontRound nbr nPar fr q = some x) :
    ∃ p m, fr p = some x ∧ Hops nbr m p q ∧ m ≤ 3 := by
  obtain ⟨p, m, h1, h2, h3⟩ := foldl_round_some _ _ h
  refine ⟨p, m, h1, h2, le_trans h3 ?_⟩
  have : (List.range nPar).count x ≤ 1 := List.nodup_iff_count_le_one.mp List.nodup_range x
  omega

theorem frontRound_reach {nPar : Nat} {fr : Fin n → Option Nat} (hlt : ∀ p x, fr p = some x → x < nPar) {a : Nat} {d : Fin 3}
    {p q : Fin n} (hp : fr p = some a) (hq : nbr d p = some q) : (frontRound nbr nPar fr q).isSome :=
  foldl_round_reach _ _ (List.mem_range.mpr (hlt p a hp)) hp hq

theorem ext_frontRound (nPar : Nat) (fr : Fin n → Option Nat) : Ext fr (frontRound nbr nPar fr) := ext_foldl_round _ _

theorem ext_frontLoop (nPar : Nat) (child : Fin n → Bool) (fuel : Nat) (fr : Fin n → Option Nat) :
    Ext fr (frontLoop nbr nPar child fuel fr) := by
  induction fuel generalizing fr with
  | zero => exact fun _ _ h => h
  | succ fuel ih =>
    rw [frontLoop]
    split
    · dsimp only
      split
      · exact (ext_frontRound nPar fr).trans (ih _)
      · exact ext_frontRound nPar fr
    · exact fun _ _ h => h

theorem frontLoop_some (nPar : Nat) (child : Fin n → Bool) (fuel : Nat) (fr : Fin n → Option Nat)
    (hlt : ∀ p x, fr p = some x → x < nPar) {i : Fin n} {x : Nat} (h : frontLoop nbr nPar child fuel fr i = some x) :
    ∃ r, (∃ p m, fr p = some x ∧ Hops nbr m p i ∧ m ≤ 3 * r) ∧ ∀ p y, fr p = some y → ∀ k, Hops nbr k p i → r ≤ k := by
  induction fuel generalizing fr with
  | zero => exact ⟨0, ⟨i, 0, h, Hops.zero i, by simp⟩, by simp⟩
  | succ fuel ih =>
    by_cases hi : ∃ y, fr i = some y
    · obtain ⟨y, hy⟩ := hi
      rw [ext_frontLoop nPar child (fuel + 1) fr i y hy] at h
      cases h
      exact ⟨0, ⟨i, 0, hy, Hops.zero i, by simp⟩, by simp⟩
    · have key : ∀ fr2 : Fin n → Option Nat, fr2 = frontRound nbr nPar fr →
          (∃ r, (∃ p m, fr2 p = some x ∧ Hops nbr m p i ∧ m ≤ 3 * r) ∧ ∀ p y, fr2 p = some y → ∀ k, Hops nbr k p i → r ≤ k) →
          ∃ r, (∃ p m, fr p = some x ∧ Hops nbr m p i ∧ m ≤ 3 * r) ∧ ∀ p y, fr p = some y → ∀ k, Hops nbr k p i → r ≤ k := by
        rintro fr2 rfl ⟨r, ⟨p, m, h1, h2, h3⟩, h4⟩
        obtain ⟨p0, m0, g1, g2, g3⟩ := frontRound_some h1
        refine ⟨r + 1, ⟨p0, m0 + m, g1, Hops.trans g2 h2, by omega⟩, ?_⟩
        intro q y hq k hk
        cases hk with
        | zero => exact absurd ⟨y, hq⟩ hi
        | succ d hd hr =>
          obtain ⟨z, hz⟩ := Option.isSome_iff_exists.mp (frontRound_reach hlt hq hd)
          have := h4 _ z hz _ hr
          omega
      have hlt' : ∀ p x, frontRound nbr nPar fr p = some x → x < nPar := by
        intro p x hx
        obtain ⟨p0, _, h0, _⟩ := frontRound_some hx
        exact hlt p0 x h0
      rw [frontLoop] at h
      split at h
      · dsimp only at h
        split at h
        · exact key _ rfl (ih _ hlt' h)
        · exact key _ rfl ⟨0, ⟨i, 0, h, Hops.zero i, by simp⟩, by simp⟩
      · exact absurd ⟨x, h⟩ hi

theorem frontLoop_none (nPar : Nat) (child : Fin n → Bool) (fuel : Nat) (fr : Fin n → Option Nat)
    (hlt : ∀ p x, fr p = some x → x < nPar) {i : Fin n} (hc : child i = true) (h : frontLoop nbr nPar child (fuel + 1) fr i = none) :
    ∀ p y, fr p = some y → ∀ k, Hops nbr k p i → 2 ≤ k := by
  have hi : fr i = none := by
    cases hf : fr i with
    | none => rfl
    | some y => rw [ext_frontLoop nPar child (fuel + 1) fr i y hf] at h; cases h
  have hr : frontRound nbr nPar fr i = none := by
    cases hf : frontRound nbr nPar fr i with
    | none => rfl
    | some y =>
      rw [frontLoop] at h
      rw [if_pos] at h
      · skip
        split at h
        · rw [ext_frontLoop nPar child fuel _ i y hf] at h; cases h
        · rw [hf] at h; cases h
      · rw [List.any_eq_true]; exact ⟨i, List.mem_finRange _, by simp [hc, hi]⟩
  intro p y hp k hk
  cases hk with
  | zero => rw [hp] at hi; cases hi
  | succ d hd hr' =>
    cases hr' with
    | zero =>
      have := frontRound_reach hlt hp hd
      rw [hr] at this; cases this
    | succ _ _ _ => omega

theorem le_foldl_max (l : List Nat) (m : Nat) : m ≤ l.foldl max m ∧ ∀ x ∈ l, x ≤ l.foldl max m := by
  induction l generalizing m with
  | nil => simp
  | cons a l ih =>
    rw [List.foldl_cons]
    obtain ⟨h1, h2⟩ := ih (max m a)
    refine ⟨le_trans (le_max_left _ _) h1, ?_⟩
    intro x hx
    rcases List.mem_cons.mp hx with rfl | hx
    · exact le_trans (le_max_right _ _) h1
    · exact h2 x hx

theorem lt_nPar (fr : Fin n → Option Nat) (p : Fin n) (x : Nat) (h : fr p = some x) :
    x < ((List.finRange n).map fun j => match fr j with | some x => x + 1 | none => 0).foldl max 0 := by
  have := (le_foldl_max ((List.finRange n).map fun j => match fr j with | some x => x + 1 | none => 0) 0).2 (x + 1)
    (List.mem_map.mpr ⟨p, List.mem_finRange _, by rw [h]⟩)
  omega

/-- The search reaches at most `3 * fuel` hops far. -/
theorem frontLoop_radius (nPar : Nat) (child : Fin n → Bool) (fuel : Nat) (fr : Fin n → Option Nat) {i : Fin n} {x : Nat}
    (h : frontLoop nbr nPar child fuel fr i = some x) : ∃ p m, fr p = some x ∧ Hops nbr m p i ∧ m ≤ 3 * fuel := by
  induction fuel generalizing fr with
  | zero => exact ⟨i, 0, h, Hops.zero i, by simp⟩
  | succ fuel ih =>
    rw [frontLoop] at h
    split at h
    · dsimp only at h
      split at h
      · obtain ⟨p, m, h1, h2, h3⟩ := ih _ h
        obtain ⟨q, k, h4, h5, h6⟩ := frontRound_some h1
        exact ⟨q, k + m, h4, Hops.trans h5 h2, by omega⟩
      · obtain ⟨q, k, h4, h5, h6⟩ := frontRound_some h
        exact ⟨q, k, h4, h5, by omega⟩
    · exact ⟨i, 0, h, Hops.zero i, by omega⟩

theorem stuck_path {nPar : Nat} {child : Fin n → Bool} {fr : Fin n → Option Nat} (hlt : ∀ p x, fr p = some x → x < nPar)
    (hstuck : ∀ j, child j = true → fr j = none → frontRound nbr nPar fr j = none) {k : Nat} {p i : Fin n}
    (hp : HopsIn nbr child k p i) (hs : (fr p).isSome) : (fr i).isSome := by
  induction hp with
  | zero => exact hs
  | succ d hd hc _ ih =>
    apply ih
    obtain ⟨x, hx⟩ := Option.isSome_iff_exists.mp hs
    have := frontRound_reach hlt hx hd
    by_contra hn
    rw [Option.not_isSome_iff_eq_none] at hn
    rw [hstuck _ hc hn] at this
    cases this

/-- A child cell connected to a held cell through child cells is reached. -/
theorem frontLoop_reach (nPar : Nat) (child : Fin n → Bool) (fuel : Nat) (fr : Fin n → Option Nat)
    (hlt : ∀ p x, fr p = some x → x < nPar) {k : Nat} {p i : Fin n} (hp : HopsIn nbr child k p i) (hs : (fr p).isSome) (hk : k ≤ fuel)
    (hci : child i = true) : (frontLoop nbr nPar child fuel fr i).isSome := by
  induction fuel generalizing fr k p with
  | zero =>
    have : k = 0 := by omega
    subst this
    cases hp
    rw [frontLoop]; exact hs
  | succ fuel ih =>
    by_cases hi : (fr i).isSome
    · obtain ⟨x, hx⟩ := Option.isSome_iff_exists.mp hi
      rw [ext_frontLoop nPar child (fuel + 1) fr i x hx]; rfl
    · have hin : fr i = none := Option.not_isSome_iff_eq_none.mp hi
      rw [frontLoop, if_pos]
      · split
        · have hlt' : ∀ p x, frontRound nbr nPar fr p = some x → x < nPar := by
            intro p x h
            obtain ⟨q, m, h1, _⟩ := frontRound_some h
            exact hlt q x h1
          cases hp with
          | zero => exact absurd hs hi
          | succ d hd hc hr =>
            obtain ⟨x, hx⟩ := Option.isSome_iff_exists.mp hs
            exact ih _ hlt' hr (frontRound_reach hlt hx hd) (by omega)
        · rename_i hst
          exfalso
          apply hi
          refine stuck_path hlt ?_ hp hs
          intro j hj hjn
          rw [Bool.not_eq_true, List.any_eq_false] at hst
          have := hst j (List.mem_finRange _)
          cases hf : frontRound nbr nPar fr j with
          | none => rfl
          | some x => simp [hj, hjn, hf] at this
      · rw [List.any_eq_true]
        exact ⟨i, List.mem_finRange _, by simp [hci, hin]⟩

end MarEx
