import Verif.Spec.TimeGaps
/-! Helper lemmas for temporal gap filling. -/
namespace MarEx
open Spec

variable {ι : Type}

theorem readT_eq_true {fs : Frames ι} {t : Int} {c : ι} :
    readT fs t c = true ↔ ∃ n : Nat, t = n ∧ ExtremeAt fs n c := by
  unfold readT ExtremeAt
  constructor
  · intro h
    split at h
    · rename_i h0
      split at h
      · rename_i f hf
        exact ⟨t.toNat, by omega, f, hf, h⟩
      · simp at h
    · simp at h
  · rintro ⟨n, rfl, f, hf, hc⟩
    simp [hf, hc]

theorem mem_offsets {r : Nat} {d : Int} : d ∈ offsets r ↔ -(r : Int) ≤ d ∧ d ≤ r := by
  simp only [offsets, List.mem_map, List.mem_range]
  constructor
  · rintro ⟨k, hk, rfl⟩; omega
  · rintro ⟨h1, h2⟩
    exact ⟨(d + r).toNat, by omega, by omega⟩

theorem extremeAt_lt {fs : Frames ι} {n : Nat} {c : ι} (h : ExtremeAt fs n c) : n < fs.length := by
  obtain ⟨f, hf, _⟩ := h
  exact (List.getElem?_eq_some_iff.mp hf).1

theorem readT_dilateT {r : Nat} {fs : Frames ι} {t : Int} {c : ι} :
    readT (dilateT r fs) t c = true ↔
      (0 ≤ t ∧ t < fs.length) ∧ ∃ s : Int, t - r ≤ s ∧ s ≤ t + r ∧ readT fs s c = true := by
  rw [readT_eq_true]
  constructor
  · rintro ⟨n, rfl, f, hf, hc⟩
    simp only [dilateT, List.getElem?_map, Option.map_eq_some_iff] at hf
    obtain ⟨m, hm, rfl⟩ := hf
    obtain ⟨hlt, hm⟩ := List.getElem?_eq_some_iff.mp hm
    simp only [List.length_range, List.getElem_range] at hlt hm
    subst hm
    simp only [List.any_eq_true] at hc
    obtain ⟨d, hd, hr⟩ := hc
    rw [mem_offsets] at hd
    exact ⟨⟨by omega, by omega⟩, _, by omega, by omega, hr⟩
  · rintro ⟨⟨h0, h1⟩, s, hs1, hs2, hr⟩
    refine ⟨t.toNat, by omega,
      (fun c => (offsets r).any (fun d => readT fs ((t.toNat : Int) + d) c)), ?_, ?_⟩
    · simp only [dilateT, List.getElem?_map]
      rw [List.getElem?_range (by omega)]; rfl
    · simp only [List.any_eq_true]
      refine ⟨s - t, mem_offsets.2 (by omega), ?_⟩
      have : (t.toNat : Int) + (s - t) = s := by omega
      rw [this]; exact hr

theorem readT_erodeT {r : Nat} {fs : Frames ι} {t : Int} {c : ι} :
    readT (erodeT r fs) t c = true ↔
      (0 ≤ t ∧ t < fs.length) ∧ ∀ s : Int, t - r ≤ s → s ≤ t + r → readT fs s c = true := by
  rw [readT_eq_true]
  constructor
  · rintro ⟨n, rfl, f, hf, hc⟩
    simp only [erodeT, List.getElem?_map, Option.map_eq_some_iff] at hf
    obtain ⟨m, hm, rfl⟩ := hf
    obtain ⟨hlt, hm⟩ := List.getElem?_eq_some_iff.mp hm
    simp only [List.length_range, List.getElem_range] at hlt hm
    subst hm
    simp only [List.all_eq_true] at hc
    refine ⟨⟨by omega, by omega⟩, ?_⟩
    intro s hs1 hs2
    have := hc (s - n) (mem_offsets.2 (by omega))
    have e : (n : Int) + (s - n) = s := by omega
    rwa [e] at this
  · rintro ⟨⟨h0, h1⟩, hall⟩
    refine ⟨t.toNat, by omega,
      (fun c => (offsets r).all (fun d => readT fs ((t.toNat : Int) + d) c)), ?_, ?_⟩
    · simp only [erodeT, List.getElem?_map]
      rw [List.getElem?_range (by omega)]; rfl
    · simp only [List.all_eq_true]
      intro d hd
      rw [mem_offsets] at hd
      exact hall _ (by omega) (by omega)

theorem extremeAt_padT {k : Nat} {fs : Frames ι} {n : Nat} {c : ι} :
    ExtremeAt (padT k fs) n c ↔ k ≤ n ∧ ExtremeAt fs (n - k) c := by
  unfold ExtremeAt padT
  constructor
  · rintro ⟨f, hf, hc⟩
    rw [List.append_assoc] at hf
    by_cases h1 : n < k
    · rw [List.getElem?_append_left (by simpa using h1)] at hf
      rw [List.getElem?_replicate] at hf
      simp [h1] at hf
      subst hf; simp at hc
    · refine ⟨by omega, ?_⟩
      rw [List.getElem?_append_right (by simpa using h1)] at hf
      simp only [List.length_replicate] at hf
      by_cases h2 : n - k < fs.length
      · rw [List.getElem?_append_left h2] at hf
        exact ⟨f, hf, hc⟩
      · rw [List.getElem?_append_right (by omega), List.getElem?_replicate] at hf
        split at hf
        · simp at hf; subst hf; simp at hc
        · simp at hf
  · rintro ⟨hk, f, hf, hc⟩
    refine ⟨f, ?_, hc⟩
    have hlt := (List.getElem?_eq_some_iff.mp hf).1
    rw [List.append_assoc, List.getElem?_append_right (by simpa using hk)]
    simp only [List.length_replicate]
    rw [List.getElem?_append_left hlt]; exact hf

theorem readT_padT {k : Nat} {fs : Frames ι} {t : Int} {c : ι} :
    readT (padT k fs) t c = true ↔ readT fs (t - k) c = true := by
  rw [readT_eq_true, readT_eq_true]
  constructor
  · rintro ⟨n, rfl, h⟩
    rw [extremeAt_padT] at h
    exact ⟨n - k, by omega, h.2⟩
  · rintro ⟨n, hn, h⟩
    refine ⟨n + k, by omega, ?_⟩
    rw [extremeAt_padT]
    exact ⟨by omega, by simpa using h⟩

theorem length_padT (k : Nat) (fs : Frames ι) : (padT k fs).length = fs.length + 2 * k := by
  simp [padT]; omega

theorem length_dilateT (r : Nat) (fs : Frames ι) : (dilateT r fs).length = fs.length := by
  simp [dilateT]

theorem length_erodeT (r : Nat) (fs : Frames ι) : (erodeT r fs).length = fs.length := by
  simp [erodeT]

theorem extremeAt_trimT {k : Nat} {fs : Frames ι} {n : Nat} {c : ι} :
    ExtremeAt (trimT k fs) n c ↔ n < fs.length - 2 * k ∧ ExtremeAt fs (n + k) c := by
  unfold ExtremeAt trimT
  constructor
  · rintro ⟨f, hf, hc⟩
    rw [List.getElem?_take] at hf
    split at hf
    · rw [List.getElem?_drop] at hf
      exact ⟨by assumption, f, by rw [Nat.add_comm]; exact hf, hc⟩
    · simp at hf
  · rintro ⟨h, f, hf, hc⟩
    refine ⟨f, ?_, hc⟩
    rw [List.getElem?_take, if_pos h, List.getElem?_drop, Nat.add_comm]; exact hf

theorem length_closeTimeGaps (T : Nat) (fs : Frames ι) : (closeTimeGaps T fs).length = fs.length := by
  unfold closeTimeGaps
  split
  · rfl
  · simp [trimT, length_erodeT, length_dilateT, length_padT]; omega

/-- The closing, in terms of windows: every window of half width `r` containing `t` meets an extreme step. -/
theorem extremeAt_close_window {r : Nat} {fs : Frames ι} {n : Nat} {c : ι} :
    ExtremeAt (closeTimeGaps (2 * r) fs) n c ↔
      n < fs.length ∧ ∀ s : Int, (n : Int) - r ≤ s → s ≤ n + r →
        ∃ m : Nat, s - r ≤ m ∧ (m : Int) ≤ s + r ∧ ExtremeAt fs m c := by
  unfold closeTimeGaps
  split
  · rename_i h0
    have hr : r = 0 := by omega
    subst hr
    constructor
    · intro h
      refine ⟨extremeAt_lt h, fun s h1 h2 => ⟨n, by omega, by omega, h⟩⟩
    · rintro ⟨_, h⟩
      obtain ⟨m, h1, h2, h3⟩ := h n (by omega) (by omega)
      have : m = n := by omega
      exact this ▸ h3
  · rename_i h0
    have hr : 2 * r / 2 = r := by omega
    simp only [hr]
    rw [extremeAt_trimT]
    simp only [length_erodeT, length_dilateT, length_padT]
    have key : ∀ m : Nat, ExtremeAt (erodeT r (dilateT r (padT (2 * r + 1) fs))) m c ↔
        readT (erodeT r (dilateT r (padT (2 * r + 1) fs))) m c = true := by
      intro m
      rw [readT_eq_true]
      constructor
      · intro h; exact ⟨m, rfl, h⟩
      · rintro ⟨n, h1, h2⟩
        have : m = n := by omega
        exact this ▸ h2
    rw [key, readT_erodeT]
    simp only [length_dilateT, length_padT]
    constructor
    · rintro ⟨hn, ⟨_, _⟩, hall⟩
      refine ⟨by omega, fun s h1 h2 => ?_⟩
      have := hall (s + (2 * r + 1)) (by omega) (by omega)
      rw [readT_dilateT] at this
      obtain ⟨_, u, hu1, hu2, hu⟩ := this
      rw [readT_padT, readT_eq_true] at hu
      obtain ⟨m, hm, he⟩ := hu
      exact ⟨m, by omega, by omega, he⟩
    · rintro ⟨hn, hall⟩
      refine ⟨by omega, ⟨by omega, by omega⟩, fun s h1 h2 => ?_⟩
      obtain ⟨m, hm1, hm2, he⟩ := hall (s - (2 * r + 1)) (by omega) (by omega)
      have hlt := extremeAt_lt he
      rw [readT_dilateT]
      refine ⟨?_, m + (2 * r + 1), by omega, by omega, ?_⟩
      · simp only [length_padT]; omega
      · rw [readT_padT, readT_eq_true]
        exact ⟨m, by omega, he⟩

/-- Greatest element below a bound satisfying a decidable predicate. -/
theorem exists_greatest {p : Nat → Prop} (N : Nat) : (∃ a, a ≤ N ∧ p a) →
    ∃ a, a ≤ N ∧ p a ∧ ∀ s, a < s → s ≤ N → ¬ p s := by
  induction N with
  | zero =>
    rintro ⟨a, ha, hp⟩
    exact ⟨a, ha, hp, fun s h1 h2 => by omega⟩
  | succ N ih =>
    rintro ⟨a, ha, hp⟩
    by_cases h : p (N + 1)
    · exact ⟨N + 1, by omega, h, fun s h1 h2 => by omega⟩
    · have : a ≠ N + 1 := fun e => h (e ▸ hp)
      obtain ⟨b, hb1, hb2, hb3⟩ := ih ⟨a, by omega, hp⟩
      refine ⟨b, by omega, hb2, fun s h1 h2 => ?_⟩
      by_cases e : s = N + 1
      · exact e ▸ h
      · exact hb3 s h1 (by omega)

/-- Least element above a bound. -/
theorem exists_least {p : Nat → Prop} (N : Nat) : (∃ a, N ≤ a ∧ p a) →
    ∃ a, N ≤ a ∧ p a ∧ ∀ s, N ≤ s → s < a → ¬ p s := by
  rintro ⟨a, ha, hp⟩
  have : ∃ b, b ≤ a - N ∧ p (a - b) ∧ ∀ s, b < s → s ≤ a - N → ¬ p (a - s) :=
    exists_greatest (p := fun b => p (a - b)) (a - N) ⟨0, by omega, by simpa using hp⟩
  obtain ⟨b, h1, h2, h3⟩ := this
  refine ⟨a - b, by omega, h2, fun s hs1 hs2 => ?_⟩
  have := h3 (a - s) (by omega) (by omega)
  have e : a - (a - s) = s := by omega
  rwa [e] at this

/-- Window form ⇔ "between two extreme steps at distance at most `2r+1`". -/
theorem window_iff_between {r : Nat} {fs : Frames ι} {n : Nat} {c : ι} :
    (∀ s : Int, (n : Int) - r ≤ s → s ≤ n + r →
        ∃ m : Nat, s - r ≤ m ∧ (m : Int) ≤ s + r ∧ ExtremeAt fs m c) ↔
      (ExtremeAt fs n c ∨ InGap fs (2 * r) n c) := by
  constructor
  · intro h
    by_cases hn : ExtremeAt fs n c
    · exact Or.inl hn
    · right
      obtain ⟨b0, hb1, _, hb3⟩ := h (n + r) (by omega) (by omega)
      obtain ⟨a0, ha1, ha2, ha3⟩ := h (n - r) (by omega) (by omega)
      obtain ⟨a, haN, hap, hamax⟩ := exists_greatest (p := fun a => ExtremeAt fs a c) n ⟨a0, by omega, ha3⟩
      obtain ⟨b, hbN, hbp, hbmin⟩ := exists_least (p := fun a => ExtremeAt fs a c) n ⟨b0, by omega, hb3⟩
      have han : a ≠ n := fun e => hn (e ▸ hap)
      have hbn : b ≠ n := fun e => hn (e ▸ hbp)
      refine ⟨a, b, by omega, by omega, hap, hbp, ?_, ?_⟩
      · intro s h1 h2
        by_cases hs : s ≤ n
        · exact hamax s h1 hs
        · exact hbmin s (by omega) h2
      · apply Classical.byContradiction
        intro hlen
        obtain ⟨m, hm1, hm2, hm3⟩ := h (max ((a : Int) + r + 1) ((n : Int) - r)) (by omega) (by omega)
        have : a < m ∧ m < b := by omega
        by_cases hs : m ≤ n
        · exact hamax m this.1 hs hm3
        · exact hbmin m (by omega) this.2 hm3
  · rintro (h | ⟨a, b, ha, hb, hea, heb, hno, hlen⟩) s h1 h2
    · exact ⟨n, by omega, by omega, h⟩
    · by_cases h : s ≤ a + r
      · exact ⟨a, by omega, by omega, hea⟩
      · exact ⟨b, by omega, by omega, heb⟩

end MarEx
