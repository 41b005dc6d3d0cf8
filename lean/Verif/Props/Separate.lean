import Verif.Props.EmptySteps
import Verif.Props.Events
/-! C198: parts of a record that are separated by more than `T_fill` steps without extremes do not influence each other. -/
namespace MarEx.Spec

/-- The record `A`, then `g` steps without extremes, then the record `B`. -/
def withGap {n : Nat} (g : Nat) (A B : List (Fin n → Bool)) : List (Fin n → Bool) := A ++ (List.replicate g noExtremes ++ B)

/-- Cell `i` at step `t` and cell `j` at step `u` carry the same event. -/
def SameEvent {n : Nat} (ids : List (Fin n → Nat)) (t : Nat) (i : Fin n) (u : Nat) (j : Fin n) : Prop :=
  ∃ f g, ids[t]? = some f ∧ ids[u]? = some g ∧ 0 < f i ∧ f i = g j

end MarEx.Spec

namespace MarEx.Props
open MarEx Spec

variable {n : Nat}

theorem length_withGap (g : Nat) (A B : List (Fin n → Bool)) : (withGap g A B).length = A.length + g + B.length := by
  simp [withGap, Nat.add_assoc]

theorem getElem?_withGap_left (g : Nat) (A B : List (Fin n → Bool)) {t : Nat} (h : t < A.length) : (withGap g A B)[t]? = A[t]? := by
  unfold withGap; rw [List.getElem?_append_left h]

theorem getElem?_withGap_mid (g : Nat) (A B : List (Fin n → Bool)) {t : Nat} (h : A.length ≤ t) (h' : t < A.length + g) :
    (withGap g A B)[t]? = some noExtremes := by
  unfold withGap
  rw [List.getElem?_append_right h, List.getElem?_append_left (by simp; omega), List.getElem?_replicate_of_lt (by omega)]

theorem getElem?_withGap_right (g : Nat) (A B : List (Fin n → Bool)) (k : Nat) : (withGap g A B)[A.length + g + k]? = B[k]? := by
  unfold withGap
  rw [List.getElem?_append_right (by omega), List.getElem?_append_right (by simp; omega)]
  congr 1; simp; omega

theorem extremeAt_withGap (g : Nat) (A B : List (Fin n → Bool)) (t : Nat) (c : Fin n) :
    ExtremeAt (withGap g A B) t c ↔ ExtremeAt A t c ∨ (A.length + g ≤ t ∧ ExtremeAt B (t - (A.length + g)) c) := by
  unfold ExtremeAt
  by_cases h1 : t < A.length
  · rw [getElem?_withGap_left g A B h1]
    constructor
    · exact Or.inl
    · rintro (h | ⟨h, -⟩)
      · exact h
      · omega
  · have hA : A[t]? = none := List.getElem?_eq_none (by omega)
    by_cases h2 : t < A.length + g
    · rw [getElem?_withGap_mid g A B (by omega) h2, hA]
      constructor
      · rintro ⟨f, hf, hc⟩
        cases hf
        simp [noExtremes] at hc
      · rintro (⟨f, hf, -⟩ | ⟨h, -⟩)
        · cases hf
        · omega
    · have := getElem?_withGap_right g A B (t - (A.length + g))
      rw [show A.length + g + (t - (A.length + g)) = t by omega] at this
      rw [this, hA]
      constructor
      · exact fun h => Or.inr ⟨by omega, h⟩
      · rintro (⟨f, hf, -⟩ | ⟨-, h⟩)
        · cases hf
        · exact h

theorem extremeAt_lt {fs : List (Fin n → Bool)} {t : Nat} {c : Fin n} (h : ExtremeAt fs t c) : t < fs.length := by
  obtain ⟨f, hf, -⟩ := h
  exact (List.getElem?_eq_some_iff.1 hf).1

theorem inGap_withGap (g T : Nat) (hg : T < g) (A B : List (Fin n → Bool)) (t : Nat) (c : Fin n) :
    InGap (withGap g A B) T t c ↔ InGap A T t c ∨ (A.length + g ≤ t ∧ InGap B T (t - (A.length + g)) c) := by
  unfold InGap
  simp only [extremeAt_withGap]
  constructor
  · rintro ⟨a, b, h1, h2, ha, hb, hn, hl⟩
    rcases ha with ha | ⟨ha0, ha⟩
    · have la := extremeAt_lt ha
      rcases hb with hb | ⟨hb0, hb⟩
      · exact Or.inl ⟨a, b, h1, h2, ha, hb, fun s hs hs' h => hn s hs hs' (Or.inl h), hl⟩
      · omega
    · rcases hb with hb | ⟨hb0, hb⟩
      · have := extremeAt_lt hb
        omega
      · refine Or.inr ⟨by omega, a - (A.length + g), b - (A.length + g), by omega, by omega, ha, hb, fun s hs hs' h => ?_, by omega⟩
        refine hn (s + (A.length + g)) (by omega) (by omega) (Or.inr ⟨by omega, ?_⟩)
        rwa [Nat.add_sub_cancel]
  · rintro (⟨a, b, h1, h2, ha, hb, hn, hl⟩ | ⟨h0, a, b, h1, h2, ha, hb, hn, hl⟩)
    · refine ⟨a, b, h1, h2, Or.inl ha, Or.inl hb, ?_, hl⟩
      rintro s hs hs' (h | ⟨h, -⟩)
      · exact hn s hs hs' h
      · have := extremeAt_lt hb
        omega
    · refine ⟨a + (A.length + g), b + (A.length + g), by omega, by omega, Or.inr ⟨by omega, ?_⟩, Or.inr ⟨by omega, ?_⟩, ?_, by omega⟩
      · rwa [Nat.add_sub_cancel]
      · rwa [Nat.add_sub_cancel]
      · rintro s hs hs' (h | ⟨h, h'⟩)
        · have := extremeAt_lt h
          omega
        · exact hn _ (by omega) (by omega) h'

theorem closeTimeGaps_withGap (T : Nat) (hT : T % 2 = 0) (g : Nat) (hg : T < g) (A B : List (Fin n → Bool)) :
    closeTimeGaps T (withGap g A B) = withGap g (closeTimeGaps T A) (closeTimeGaps T B) := by
  obtain ⟨hl, hx⟩ := C01_time_gaps_filled_exactly T hT (withGap g A B)
  obtain ⟨hlA, hxA⟩ := C01_time_gaps_filled_exactly T hT A
  obtain ⟨hlB, hxB⟩ := C01_time_gaps_filled_exactly T hT B
  apply frames_ext
  · rw [hl, length_withGap, length_withGap, hlA, hlB]
  · intro t c
    rw [hx, extremeAt_withGap, extremeAt_withGap, inGap_withGap g T hg, hxA, hxB, hlA]
    tauto

theorem map_withGap (F : (Fin n → Bool) → Fin n → Bool) (hF : F noExtremes = noExtremes) (g : Nat) (A B : List (Fin n → Bool)) :
    (withGap g A B).map F = withGap g (A.map F) (B.map F) := by
  simp [withGap, hF]

theorem fillTimeGaps_withGap (F : Nat → (Fin n → Bool) → Fin n → Bool) (hF : ∀ R, F R noExtremes = noExtremes) (T R : Nat) (hT : T % 2 = 0)
    (g : Nat) (hg : T < g) (A B : List (Fin n → Bool)) :
    fillTimeGaps F T R (withGap g A B) = withGap g (fillTimeGaps F T R A) (fillTimeGaps F T R B) := by
  unfold fillTimeGaps
  split
  · rfl
  · rw [closeTimeGaps_withGap T hT g hg, map_withGap _ (hF _)]

theorem fillStagesGrid_withGap {ny nx : Nat} (p : GridRun ny nx) (hT : p.T % 2 = 0) (g : Nat) (hg : p.T < g) (A B : List (Fin (ny * nx) → Bool)) :
    fillStagesGrid p (withGap g A B) = withGap g (fillStagesGrid p A) (fillStagesGrid p B) := by
  unfold fillStagesGrid
  rw [map_withGap _ (fillFrameGrid_noExtremes p.regional p.mask p.R)]
  exact fillTimeGaps_withGap _ (fun R => fillFrameGrid_noExtremes p.regional p.mask R) p.T p.R hT g hg _ _

/-! ### No event reaches across the gap -/

/-- **C198** On grids, whatever the merging and partition settings, the chunks, the area criterion, the mask and the overlap threshold: if more than
`T_fill` steps without extremes lie between two parts of a record, no event has cells in both, and nothing is found in between. -/
theorem C198_no_event_crosses {ny nx : Nat} (cc : Labeller) (hcc : CorrectLabeller cc) (hnx : 0 < nx) (p : GridRun ny nx)
    (wrap nn : Bool) (thr : ℚ) (cen : Frame (ny * nx) → Nat → ℚ × ℚ) (htrack : p.track = gridCfg wrap nn ny nx thr cen)
    (hT : p.T % 2 = 0) (g : Nat) (hg : p.T < g) (A B : List (Fin (ny * nx) → Bool)) (chunks : List Nat)
    (pre : List (Fin (ny * nx) → Bool)) (ids : List (Frame (ny * nx))) (h : runGrid cc p chunks (withGap g A B) = .ok (pre, ids)) :
    (∀ t u i j, t < A.length → A.length + g ≤ u → ¬ SameEvent ids t i u j) ∧
    (∀ t f, A.length ≤ t → t < A.length + g → ids[t]? = some f → ∀ i, f i = 0) := by
  obtain ⟨hl1, hl2, hx⟩ := C65_grid_run cc hcc hnx p wrap nn thr cen htrack chunks _ pre ids h
  have hids : ids = trackingGrid cc p chunks pre := by
    unfold runGrid at h
    split at h
    · cases h
    · cases h; rfl
  obtain ⟨r, hr, rfl⟩ := runGrid_parts h
  have hgap : ∀ t f, A.length ≤ t → t < A.length + g → ids[t]? = some f → ∀ i, f i = 0 := by
    intro t f h1 h2 hf i
    by_contra hne
    obtain ⟨d, hd, hdi⟩ := ((hx t f hf i).1).1 (Nat.pos_of_ne_zero hne)
    unfold preprocessGrid at hr
    rw [fillStagesGrid_withGap p hT g hg] at hr
    obtain ⟨hl, hsub⟩ := filterGrid_sub hr
    have ht : t < (identifyObjectsGrid cc false p.regional nx (withGap g (fillStagesGrid p A) (fillStagesGrid p B))).length := by
      rw [← hl]; exact (List.getElem?_eq_some_iff.1 hd).1
    have hpos := hsub t _ d (List.getElem?_eq_getElem ht) hd i hdi
    obtain ⟨e, he, hei⟩ := ((C63_grid_objects_are_components cc hcc p.regional nx hnx _ t t _ _ (List.getElem?_eq_getElem ht)
      (List.getElem?_eq_getElem ht) i i).1).1 hpos
    rw [getElem?_withGap_mid g _ _ (by rw [length_fillStagesGrid]; exact h1) (by rw [length_fillStagesGrid]; exact h2)] at he
    cases he
    simp [noExtremes] at hei
  refine ⟨?_, hgap⟩
  rintro t u i j ht hu ⟨f, f', hf, hf', hpos, heq⟩
  have hng := C99_grid_events_without_gaps cc hcc hnx p wrap nn thr cen htrack chunks r.field
  rw [← hids] at hng
  obtain ⟨e, he, k, hk⟩ := hng (f i) hpos t A.length u (by omega) (by omega) ⟨f, hf, i, rfl⟩ ⟨f', hf', j, heq.symm⟩
  have := hgap A.length e le_rfl (by omega) he k
  omega

/-! ### The middle part of a record on a grid -/

/-- A cell of a step is kept by the absolute filter according to the extremes of that step alone, once an earlier step has an object. -/
theorem kept_by_step (cc : Labeller) (hcc : CorrectLabeller cc) {nx : Nat} (hnx : 0 < nx) (regional : Bool) (a : ℚ)
    (F F' : List (Fin n → Bool)) (r r' : FilterResult n)
    (hr : filterGrid (.absolute a) (identifyObjectsGrid cc false regional nx F) = .ok r)
    (hr' : filterGrid (.absolute a) (identifyObjectsGrid cc false regional nx F') = .ok r')
    (t t' : Nat) (hstep : F[t]? = F'[t']?) (s s' : Nat) (hs : s < t) (hs' : s' < t') (i₀ i₀' : Fin n)
    (hi : IsExtreme F s i₀) (hi' : IsExtreme F' s' i₀') : r.field[t]? = r'.field[t']? := by
  set labels := identifyObjectsGrid cc false regional nx F with hlab
  set labels' := identifyObjectsGrid cc false regional nx F' with hlab'
  have hll : labels.length = F.length := by rw [hlab, length_identify]
  have hll' : labels'.length = F'.length := by rw [hlab', length_identify]
  have hlen := (filterGrid_sub hr).1
  have hlen' := (filterGrid_sub hr').1
  by_cases ht : t < F.length
  · have ht' : t' < F'.length := by
      by_contra hc
      rw [List.getElem?_eq_getElem ht, List.getElem?_eq_none (by omega)] at hstep
      cases hstep
    have hu : UniqueLabels labels := by
      intro t u f f' hf hf' i j h0 he
      exact ((C63_grid_objects_are_components cc hcc regional nx hnx F t u f f' hf hf' i j).2.mp ⟨h0, he⟩).1
    have hu' : UniqueLabels labels' := by
      intro t u f f' hf hf' i j h0 he
      exact ((C63_grid_objects_are_components cc hcc regional nx hnx F' t u f f' hf hf' i j).2.mp ⟨h0, he⟩).1
    have hft := List.getElem?_eq_getElem (hll.symm ▸ ht : t < labels.length)
    have hft' := List.getElem?_eq_getElem (hll'.symm ▸ ht' : t' < labels'.length)
    generalize labels[t] = f at hft
    generalize labels'[t'] = f' at hft'
    obtain ⟨k, hk, hki⟩ := C07_keeps_exactly_large_partial labels hu _ r hr t f hft
    obtain ⟨k', hk', hki'⟩ := C07_keeps_exactly_large_partial labels' hu' _ r' hr' t' f' hft'
    rw [hk, hk', Option.some.injEq]
    have hE : ∀ i, IsExtreme F t i ↔ IsExtreme F' t' i := by intro i; unfold IsExtreme; rw [hstep]
    have cf := fun i j => C63_grid_objects_are_components cc hcc regional nx hnx F t t f f hft hft i j
    have cf' := fun i j => C63_grid_objects_are_components cc hcc regional nx hnx F' t' t' f' f' hft' hft' i j
    have hpos : ∀ i, 0 < f i ↔ 0 < f' i := fun i => by rw [(cf i i).1, (cf' i i).1, hE]
    have hJ : ∀ x y, JoinedInStep regional nx F t x y ↔ JoinedInStep regional nx F' t' x y := by
      intro x y; unfold JoinedInStep; rw [hE, hE]
    have hsize : ∀ i, 0 < f i → size f (f i) = size f' (f' i) := by
      intro i h0
      apply le_antisymm
      · refine size_le_of_linked (E := JoinedInStep regional nx F t) (E' := JoinedInStep regional nx F' t') (fun x y => (hJ x y).1) ?_ ?_
        · exact fun j hj => ((cf i j).2.mp ⟨h0, hj⟩).2.2.2
        · intro j hl
          have hj := linked_last (P := IsExtreme F' t') (fun x y hxy => hxy.2) ((cf' i i).1.mp ((hpos i).1 h0)) hl
          exact ((cf' i j).2.mpr ⟨rfl, (cf' i i).1.mp ((hpos i).1 h0), hj, hl⟩).2
      · refine size_le_of_linked (E := JoinedInStep regional nx F' t') (E' := JoinedInStep regional nx F t) (fun x y => (hJ x y).2) ?_ ?_
        · exact fun j hj => ((cf' i j).2.mp ⟨(hpos i).1 h0, hj⟩).2.2.2
        · intro j hl
          have hj := linked_last (P := IsExtreme F t) (fun x y hxy => hxy.2) ((cf i i).1.mp h0) hl
          exact ((cf i j).2.mpr ⟨rfl, (cf i i).1.mp h0, hj, hl⟩).2
    have hnf : ∀ i, ¬ IsFirst labels t (f i) := by
      intro i hF
      have hsl : s < labels.length := by rw [hll]; omega
      have := ((C63_grid_objects_are_components cc hcc regional nx hnx F s s _ _ (List.getElem?_eq_getElem hsl) (List.getElem?_eq_getElem hsl) i₀ i₀).1).2 hi
      have hz := hF.1 s _ hs (List.getElem?_eq_getElem hsl) i₀
      exact absurd (hz ▸ this) (lt_irrefl 0)
    have hnf' : ∀ i, ¬ IsFirst labels' t' (f' i) := by
      intro i hF
      have hsl : s' < labels'.length := by rw [hll']; omega
      have := ((C63_grid_objects_are_components cc hcc regional nx hnx F' s' s' _ _ (List.getElem?_eq_getElem hsl) (List.getElem?_eq_getElem hsl) i₀' i₀').1).2 hi'
      have hz := hF.1 s' _ hs' (List.getElem?_eq_getElem hsl) i₀'
      exact absurd (hz ▸ this) (lt_irrefl 0)
    funext i
    rw [Bool.eq_iff_iff, hki, hki', absolute_threshold_grid hr, absolute_threshold_grid hr']
    constructor
    · rintro ⟨h1, h2, -⟩
      exact ⟨(hpos i).1 h1, hsize i h1 ▸ h2, hnf' i⟩
    · rintro ⟨h1, h2, -⟩
      exact ⟨(hpos i).2 h1, (hsize i ((hpos i).2 h1)).symm ▸ h2, hnf i⟩
  · rw [List.getElem?_eq_none (by omega), List.getElem?_eq_none]
    rw [List.getElem?_eq_none (by omega)] at hstep
    have := List.getElem?_eq_none_iff.1 hstep.symm
    omega

/-- Events of one part of a record: their links do not leave the part if the steps around it have no extremes. -/
theorem linked_part (regional : Bool) (nx : Nat) (P P' : List (Fin n → Bool)) (s s' len : Nat)
    (hsame : ∀ k, k < len → ∀ i, IsExtreme P (s + k) i ↔ IsExtreme P' (s' + k) i)
    (hbefore : ∀ t i, t + 1 = s → ¬ IsExtreme P t i) (hafter : ∀ i, ¬ IsExtreme P (s + len) i)
    (k : Nat) (hk : k < len) (i : Fin n) (v : Nat × Fin n) (h : Linked (JoinedInTime regional nx P) (s + k, i) v) :
    ∃ l, l < len ∧ v.1 = s + l ∧ Linked (JoinedInTime regional nx P') (s' + k, i) (s' + l, v.2) := by
  have key : ∀ (l : Nat) (x y : Nat × Fin n), l < len → x.1 = s + l → JoinedInTime regional nx P x y ∨ JoinedInTime regional nx P y x →
      ∃ m, m < len ∧ y.1 = s + m := by
    intro l x y hl hx hj
    have hd : ((x.1 : Int) - y.1).natAbs ≤ 1 ∧ IsExtreme P y.1 y.2 := by
      rcases hj with ⟨h1, -, -, h4⟩ | ⟨h1, -, h3, -⟩
      · exact ⟨h1, h4⟩
      · exact ⟨by omega, h3⟩
    have h1 : s ≤ y.1 := by
      by_contra hc
      exact hbefore y.1 y.2 (by omega) hd.2
    have h2 : y.1 ≠ s + len := fun hc => hafter y.2 (hc ▸ hd.2)
    exact ⟨y.1 - s, by omega, by omega⟩
  have move : ∀ (l m : Nat) (x y : Nat × Fin n), l < len → m < len → x.1 = s + l → y.1 = s + m → JoinedInTime regional nx P x y →
      JoinedInTime regional nx P' (s' + l, x.2) (s' + m, y.2) := by
    rintro l m ⟨x1, x2⟩ ⟨y1, y2⟩ hl hm rfl rfl ⟨h1, h2, h3, h4⟩
    refine ⟨?_, h2, (hsame l hl _).1 h3, (hsame m hm _).1 h4⟩
    dsimp only at h1 ⊢
    omega
  induction h with
  | refl => exact ⟨k, hk, rfl, .refl _⟩
  | fwd _ he ih =>
    obtain ⟨l, hl, hlv, hL⟩ := ih
    obtain ⟨m, hm, hmv⟩ := key l _ _ hl hlv (Or.inl he)
    exact ⟨m, hm, hmv, .fwd hL (move l m _ _ hl hm hlv hmv he)⟩
  | bwd _ he ih =>
    obtain ⟨l, hl, hlv, hL⟩ := ih
    obtain ⟨m, hm, hmv⟩ := key l _ _ hl hlv (Or.inr he)
    exact ⟨m, hm, hmv, .bwd hL (move m l _ _ hm hl hmv hlv he)⟩

/-- A record that the area filter accepts has an extreme cell after filling. -/
theorem extreme_of_ok {ny nx : Nat} (cc : Labeller) (hcc : CorrectLabeller cc) (hnx : 0 < nx) (p : GridRun ny nx) (X : List (Fin (ny * nx) → Bool))
    (h : ∃ r, preprocessGrid cc p X = .ok r) : ∃ s i, IsExtreme (fillStagesGrid p X) s i := by
  obtain ⟨r, hr⟩ := h
  unfold preprocessGrid at hr
  have hne : ¬ ∀ f ∈ identifyObjectsGrid cc false p.regional nx (fillStagesGrid p X), ∀ i, f i = 0 := by
    intro hz
    rw [((C145_threshold _ p.criterion).1).2 hz] at hr
    cases hr
  push Not at hne
  obtain ⟨f, hf, i, hi⟩ := hne
  obtain ⟨t, ht⟩ := List.mem_iff_getElem?.1 hf
  exact ⟨t, i, ((C63_grid_objects_are_components cc hcc p.regional nx hnx _ t t f f ht ht i i).1).1 (Nat.pos_of_ne_zero hi)⟩

/-- A record that has an extreme cell after filling passes the area filter. -/
theorem ok_of_extreme {ny nx : Nat} (cc : Labeller) (hcc : CorrectLabeller cc) (hnx : 0 < nx) (p : GridRun ny nx) (X : List (Fin (ny * nx) → Bool))
    (h : ∃ s i, IsExtreme (fillStagesGrid p X) s i) : ∃ r, preprocessGrid cc p X = .ok r := by
  unfold preprocessGrid
  cases hr : filterGrid p.criterion (identifyObjectsGrid cc false p.regional nx (fillStagesGrid p X)) with
  | ok r => exact ⟨r, rfl⟩
  | error e =>
    exfalso
    have he : e = .noObjects := by
      unfold filterGrid at hr
      dsimp only at hr
      split at hr
      · cases hr; rfl
      · cases hr
    rw [he] at hr
    have hz := ((C145_threshold _ p.criterion).1).1 hr
    obtain ⟨s, i, hi⟩ := h
    have hs : s < (identifyObjectsGrid cc false p.regional nx (fillStagesGrid p X)).length := by
      rw [length_identify]; exact extremeAt_lt hi
    have := ((C63_grid_objects_are_components cc hcc p.regional nx hnx _ s s _ _ (List.getElem?_eq_getElem hs) (List.getElem?_eq_getElem hs) i i).1).2 hi
    rw [hz _ (List.getElem_mem hs) i] at this
    exact absurd this (lt_irrefl 0)

/-- Where the preprocessed field has no extremes because the filled record has none. -/
theorem pre_empty {ny nx : Nat} (cc : Labeller) (hcc : CorrectLabeller cc) (hnx : 0 < nx) (p : GridRun ny nx) (D : List (Fin (ny * nx) → Bool))
    (r : FilterResult (ny * nx)) (hr : preprocessGrid cc p D = .ok r) (t : Nat) (i : Fin (ny * nx)) (h : IsExtreme r.field t i) :
    IsExtreme (fillStagesGrid p D) t i := by
  unfold preprocessGrid at hr
  obtain ⟨hl, hsub⟩ := filterGrid_sub hr
  obtain ⟨d, hd, hdi⟩ := h
  have ht : t < (identifyObjectsGrid cc false p.regional nx (fillStagesGrid p D)).length := by
    rw [← hl]; exact (List.getElem?_eq_some_iff.1 hd).1
  exact ((C63_grid_objects_are_components cc hcc p.regional nx hnx _ t t _ _ (List.getElem?_eq_getElem ht) (List.getElem?_eq_getElem ht) i i).1).1
    (hsub t _ d (List.getElem?_eq_getElem ht) hd i hdi)

/-- **C198** The middle part `B` of a record on a grid, with more than `T_fill` steps without extremes before and after it, tracked with an absolute area
threshold: whatever comes before (as long as it has an object) and after, the preprocessed extremes of the part are the same, and without merging so are
its events.  Missing: the first part of a record, which loses its first object (`C198_first_part_fails`), the quartile criterion
(`C198_quartile_fails`), and the events with merging, for which see `C198_middle_part_merging_partial`. -/
theorem C198_middle_part_partial {ny nx : Nat} (cc : Labeller) (hcc : CorrectLabeller cc) (hnx : 0 < nx) (p : GridRun ny nx)
    (hT : p.T % 2 = 0) (a : ℚ) (hc : p.criterion = .absolute a) (B X Y X' Y' : List (Fin (ny * nx) → Bool)) (g h g' h' : Nat)
    (hg : p.T < g) (hh : p.T < h) (hg' : p.T < g') (hh' : p.T < h') (chunks chunks' : List Nat)
    (hX : ∃ r, preprocessGrid cc p X = .ok r) (hX' : ∃ r, preprocessGrid cc p X' = .ok r) :
    ∃ pre ids pre' ids', runGrid cc p chunks (withGap g X (withGap h B Y)) = .ok (pre, ids) ∧
      runGrid cc p chunks' (withGap g' X' (withGap h' B Y')) = .ok (pre', ids') ∧
      (∀ k, k < B.length → pre[X.length + g + k]? = pre'[X'.length + g' + k]?) ∧
      (p.allowMerging = false → ∀ k l i j, k < B.length → l < B.length →
        (SameEvent ids (X.length + g + k) i (X.length + g + l) j ↔ SameEvent ids' (X'.length + g' + k) i (X'.length + g' + l) j)) := by
  have hfill : ∀ (X Y : List (Fin (ny * nx) → Bool)) (g h : Nat), p.T < g → p.T < h → fillStagesGrid p (withGap g X (withGap h B Y)) =
      withGap g (fillStagesGrid p X) (withGap h (fillStagesGrid p B) (fillStagesGrid p Y)) := by
    intro X Y g h hg hh
    rw [fillStagesGrid_withGap p hT g hg, fillStagesGrid_withGap p hT h hh]
  have hex : ∀ (X Y : List (Fin (ny * nx) → Bool)) (g h : Nat), p.T < g → p.T < h → (∃ r, preprocessGrid cc p X = .ok r) →
      ∃ s i, s < X.length ∧ IsExtreme (fillStagesGrid p (withGap g X (withGap h B Y))) s i := by
    intro X Y g h hg hh hX
    obtain ⟨s, i, hs⟩ := extreme_of_ok cc hcc hnx p X hX
    refine ⟨s, i, by have := extremeAt_lt hs; rwa [length_fillStagesGrid] at this, ?_⟩
    rw [hfill X Y g h hg hh]
    exact (extremeAt_withGap _ _ _ _ _).2 (Or.inl hs)
  obtain ⟨s, i, hs, hi⟩ := hex X Y g h hg hh hX
  obtain ⟨s', i', hs', hi'⟩ := hex X' Y' g' h' hg' hh' hX'
  obtain ⟨r, hr⟩ := ok_of_extreme cc hcc hnx p _ ⟨s, i, hi⟩
  obtain ⟨r', hr'⟩ := ok_of_extreme cc hcc hnx p _ ⟨s', i', hi'⟩
  have hstep : ∀ (X Y : List (Fin (ny * nx) → Bool)) (g h : Nat), p.T < g → p.T < h → ∀ k, k < B.length →
      (fillStagesGrid p (withGap g X (withGap h B Y)))[X.length + g + k]? = (fillStagesGrid p B)[k]? := by
    intro X Y g h hg hh k hk
    rw [hfill X Y g h hg hh]
    have := getElem?_withGap_right g (fillStagesGrid p X) (withGap h (fillStagesGrid p B) (fillStagesGrid p Y)) k
    rw [length_fillStagesGrid] at this
    rw [this, getElem?_withGap_left]
    rwa [length_fillStagesGrid]
  have hpre : ∀ k, k < B.length → r.field[X.length + g + k]? = r'.field[X'.length + g' + k]? := by
    intro k hk
    have e1 := hr
    have e2 := hr'
    unfold preprocessGrid at e1 e2
    rw [hc] at e1 e2
    exact kept_by_step cc hcc hnx p.regional a _ _ r r' e1 e2 _ _ (by rw [hstep X Y g h hg hh k hk, hstep X' Y' g' h' hg' hh' k hk])
      s s' (by omega) (by omega) i i' hi hi'
  refine ⟨r.field, trackingGrid cc p chunks r.field, r'.field, trackingGrid cc p chunks' r'.field, by unfold runGrid; rw [hr],
    by unfold runGrid; rw [hr'], hpre, fun hm k l x y hk hl => ?_⟩
  have hsame : ∀ k, k < B.length → ∀ i, IsExtreme r.field (X.length + g + k) i ↔ IsExtreme r'.field (X'.length + g' + k) i := by
    intro k hk i; unfold IsExtreme; rw [hpre k hk]
  -- the steps around the part are empty
  have hside : ∀ (X Y : List (Fin (ny * nx) → Bool)) (g h : Nat), p.T < g → p.T < h → ∀ r : FilterResult (ny * nx),
      preprocessGrid cc p (withGap g X (withGap h B Y)) = .ok r →
      (∀ t i, t + 1 = X.length + g → ¬ IsExtreme r.field t i) ∧ ∀ i, ¬ IsExtreme r.field (X.length + g + B.length) i := by
    intro X Y g h hg hh r hr
    refine ⟨fun t i ht hx => ?_, fun i hx => ?_⟩
    · have := pre_empty cc hcc hnx p _ r hr t i hx
      rw [hfill X Y g h hg hh] at this
      obtain ⟨e, he, hei⟩ := this
      rw [getElem?_withGap_mid g _ _ (by rw [length_fillStagesGrid]; omega) (by rw [length_fillStagesGrid]; omega)] at he
      cases he
      simp [noExtremes] at hei
    · have := pre_empty cc hcc hnx p _ r hr _ i hx
      rw [hfill X Y g h hg hh] at this
      obtain ⟨e, he, hei⟩ := this
      have e1 := getElem?_withGap_right g (fillStagesGrid p X) (withGap h (fillStagesGrid p B) (fillStagesGrid p Y)) B.length
      rw [length_fillStagesGrid] at e1
      rw [e1, getElem?_withGap_mid h _ _ (by rw [length_fillStagesGrid]) (by rw [length_fillStagesGrid]; omega)] at he
      cases he
      simp [noExtremes] at hei
  obtain ⟨b1, a1⟩ := hside X Y g h hg hh r hr
  obtain ⟨b2, a2⟩ := hside X' Y' g' h' hg' hh' r' hr'
  have hlen : ∀ (ch : List Nat) (q : List (Fin (ny * nx) → Bool)), (trackingGrid cc p ch q).length = q.length := by
    intro ch q; unfold trackingGrid; rw [hm]; exact length_identify
  have conv : ∀ (ch : List Nat) (q : List (Fin (ny * nx) → Bool)) (t u : Nat) (x y : Fin (ny * nx)),
      SameEvent (trackingGrid cc p ch q) t x u y ↔ (IsExtreme q t x ∧ IsExtreme q u y ∧ Linked (JoinedInTime p.regional nx q) (t, x) (u, y)) := by
    intro ch q t u x y
    have hev := (C64_no_merging_events cc hcc hnx p hm ch q).1
    constructor
    · rintro ⟨f, f', hf, hf', h0, he⟩
      exact ((hev t u f f' hf hf' x y).2).1 ⟨h0, he⟩
    · rintro ⟨h1, h2, h3⟩
      have ht : t < (trackingGrid cc p ch q).length := by rw [hlen]; exact extremeAt_lt h1
      have hu : u < (trackingGrid cc p ch q).length := by rw [hlen]; exact extremeAt_lt h2
      obtain ⟨e1, e2⟩ := ((hev t u _ _ (List.getElem?_eq_getElem ht) (List.getElem?_eq_getElem hu) x y).2).2 ⟨h1, h2, h3⟩
      exact ⟨_, _, List.getElem?_eq_getElem ht, List.getElem?_eq_getElem hu, e1, e2⟩
  rw [conv, conv, hsame k hk, hsame l hl]
  constructor
  · rintro ⟨h1, h2, h3⟩
    obtain ⟨m, hm1, hm2, hm3⟩ := linked_part p.regional nx r.field r'.field _ (X'.length + g') B.length hsame b1 a1 k hk x _ h3
    have : m = l := by dsimp only at hm2; omega
    exact ⟨h1, h2, this ▸ hm3⟩
  · rintro ⟨h1, h2, h3⟩
    obtain ⟨m, hm1, hm2, hm3⟩ := linked_part p.regional nx r'.field r.field _ (X.length + g) B.length
      (fun k hk i => (hsame k hk i).symm) b2 a2 k hk x _ h3
    have : m = l := by dsimp only at hm2; omega
    exact ⟨h1, h2, this ▸ hm3⟩

/-- **C198** negative, grids: a part tracked by itself loses its first object, which it keeps as a later part of a record.  For every two accepted parts, every
gap longer than `T_fill`, and an area threshold that every object meets: some cell is extreme in the combined run and not in the run of the part alone. -/
theorem C198_first_part_fails {ny nx : Nat} (cc : Labeller) (hcc : CorrectLabeller cc) (hnx : 0 < nx) (p : GridRun ny nx)
    (hT : p.T % 2 = 0) (a : ℚ) (ha : a ≤ 1) (hc : p.criterion = .absolute a) (X B : List (Fin (ny * nx) → Bool)) (g : Nat) (hg : p.T < g)
    (r rX rB : FilterResult (ny * nx)) (hX : preprocessGrid cc p X = .ok rX) (hB : preprocessGrid cc p B = .ok rB)
    (hr : preprocessGrid cc p (withGap g X B) = .ok r) :
    ∃ k i, k < B.length ∧ IsExtreme r.field (X.length + g + k) i ∧ ¬ IsExtreme rB.field k i := by
  classical
  have hBe := extreme_of_ok cc hcc hnx p B ⟨_, hB⟩
  obtain ⟨s, i₀, hs⟩ := extreme_of_ok cc hcc hnx p X ⟨_, hX⟩
  unfold preprocessGrid at hB hr
  rw [hc] at hB hr
  rw [fillStagesGrid_withGap p hT g hg] at hr
  set F := fillStagesGrid p B with hF
  set D := withGap g (fillStagesGrid p X) F with hD
  -- the first object of the part
  let k := Nat.find hBe
  have hkmin : ∀ m, m < k → ∀ i, ¬ IsExtreme F m i := fun m hm i h => Nat.find_min hBe hm ⟨i, h⟩
  obtain ⟨i₁, hi₁⟩ : ∃ i, IsExtreme F k i := Nat.find_spec hBe
  have hkl : k < F.length := extremeAt_lt hi₁
  have hkB : k < B.length := by rw [hF, length_fillStagesGrid] at hkl; exact hkl
  set labels := identifyObjectsGrid cc false p.regional nx F with hlab
  have hkl' : k < labels.length := by rw [hlab, length_identify]; exact hkl
  have hft := List.getElem?_eq_getElem hkl'
  generalize labels[k] = f at hft
  have hpos : ∀ i, 0 < f i ↔ IsExtreme F k i := fun i => (C63_grid_objects_are_components cc hcc p.regional nx hnx F k k f f hft hft i i).1
  have hv : ∃ v, 0 < v ∧ ∃ i, f i = v := ⟨f i₁, (hpos i₁).2 hi₁, i₁, rfl⟩
  obtain ⟨hv0, i, hiv⟩ := Nat.find_spec hv
  have hvmin : ∀ j, 0 < f j → f i ≤ f j := fun j hj => by rw [hiv]; exact Nat.find_min' hv ⟨hj, j, rfl⟩
  have hfi : 0 < f i := by rw [hiv]; exact hv0
  refine ⟨k, i, hkB, ?_, ?_⟩
  · -- kept in the combined run
    set L := identifyObjectsGrid cc false p.regional nx D with hL
    have hstep : D[X.length + g + k]? = F[k]? := by
      have := getElem?_withGap_right g (fillStagesGrid p X) F k
      rwa [length_fillStagesGrid] at this
    have hDl : X.length + g + k < L.length := by
      rw [hL, length_identify, hD, length_withGap, length_fillStagesGrid]; omega
    have hu : UniqueLabels L := by
      intro t u f f' hf hf' i j h0 he
      exact ((C63_grid_objects_are_components cc hcc p.regional nx hnx D t u f f' hf hf' i j).2.mp ⟨h0, he⟩).1
    have hgt := List.getElem?_eq_getElem hDl
    generalize L[X.length + g + k] = f' at hgt
    obtain ⟨q, hq, hqi⟩ := C07_keeps_exactly_large_partial L hu _ r hr _ f' hgt
    have hp' : 0 < f' i := by
      rw [(C63_grid_objects_are_components cc hcc p.regional nx hnx D _ _ f' f' hgt hgt i i).1]
      unfold IsExtreme
      rw [hstep]
      exact (hpos i).1 hfi
    refine ⟨q, hq, (hqi i).2 ⟨hp', ?_, ?_⟩⟩
    · rw [absolute_threshold_grid hr]
      have : 1 ≤ size f' (f' i) := by
        unfold size
        exact Finset.card_pos.2 ⟨i, by simp⟩
      have : (1 : ℚ) ≤ (size f' (f' i) : ℚ) := by exact_mod_cast this
      linarith
    · intro hfirst
      have hs' : IsExtreme D s i₀ := (extremeAt_withGap _ _ _ _ _).2 (Or.inl hs)
      have hsl : s < L.length := by rw [hL, length_identify]; exact extremeAt_lt hs'
      have hsX : s < X.length := by have := extremeAt_lt hs; rwa [length_fillStagesGrid] at this
      have h1 := ((C63_grid_objects_are_components cc hcc p.regional nx hnx D s s _ _ (List.getElem?_eq_getElem hsl) (List.getElem?_eq_getElem hsl) i₀ i₀).1).2 hs'
      have hz := hfirst.1 s _ (by omega) (List.getElem?_eq_getElem hsl) i₀
      exact absurd (hz ▸ h1) (lt_irrefl 0)
  · rintro ⟨d, hd, hdi⟩
    have hu : UniqueLabels labels := by
      intro t u f f' hf hf' i j h0 he
      exact ((C63_grid_objects_are_components cc hcc p.regional nx hnx F t u f f' hf hf' i j).2.mp ⟨h0, he⟩).1
    obtain ⟨q, hq, hqi⟩ := C07_keeps_exactly_large_partial labels hu _ rB hB k f hft
    rw [hq] at hd
    cases hd
    refine ((hqi i).1 hdi).2.2 ⟨fun m e hm he j => ?_, fun e he j hj => ?_⟩
    · by_contra hne
      exact hkmin m hm j (((C63_grid_objects_are_components cc hcc p.regional nx hnx F m m e e he he j j).1).1 (Nat.pos_of_ne_zero hne))
    · rw [hft] at he
      cases he
      exact hvmin j hj

/-- One extreme cell. -/
def oneCell : List (Fin (1 * 5) → Bool) := [fun i => decide (i.val = 0)]

/-- Three extreme cells at each of two steps. -/
def threeCells : List (Fin (1 * 5) → Bool) := [fun i => decide (i.val ≤ 2), fun i => decide (i.val ≤ 2)]

-- the hypotheses of the theorems above are met: parts accepted by themselves, and a part of one cell between others
example : (match preprocessGrid quickFind (cellsRun (.absolute 1)) oneCell with | .ok _ => true | .error _ => false) = true ∧
    (cellsRun (.absolute 1)).T < 1 ∧
    (match runGrid quickFind (cellsRun (.absolute 1)) [7] (withGap 1 threeCells (withGap 1 oneCell threeCells)) with
      | .ok (_, [_, _, _, g, _, _, _]) => decide (0 < g 0) | _ => false) = true ∧
    (match runGrid quickFind (cellsRun (.absolute 1)) [1] oneCell with
      | .ok (_, [g]) => decide (g 0 = 0) | _ => false) = true := by decide +kernel

/-- **C198** negative: with the default `area_filter_quartile = 0.5` the threshold is that of the whole record: the event of a middle part is there or not
according to what comes after the gap. -/
theorem C198_quartile_fails : ∃ pre ids pre' ids' f f',
    runGrid quickFind (cellsRun (.quartile (1 / 2))) [4] (withGap 1 oneCell (withGap 1 oneCell [])) = .ok (pre, ids) ∧
    runGrid quickFind (cellsRun (.quartile (1 / 2))) [6] (withGap 1 oneCell (withGap 1 oneCell threeCells)) = .ok (pre', ids') ∧
    ids[2]? = some f ∧ ids'[2]? = some f' ∧ 0 < f 0 ∧ f' 0 = 0 := by
  have e1 : runGrid quickFind (cellsRun (.quartile (1 / 2))) [4] (withGap 1 oneCell (withGap 1 oneCell [])) =
      runGrid quickFind (cellsRun (.absolute 1)) [4] (withGap 1 oneCell (withGap 1 oneCell [])) :=
    runGrid_quartile _ _ _ _ [1, 1] (by decide +kernel) (by
      unfold percentile
      rw [List.mergeSort_of_pairwise (by decide +kernel)]
      decide +kernel)
  have e2 : runGrid quickFind (cellsRun (.quartile (1 / 2))) [6] (withGap 1 oneCell (withGap 1 oneCell threeCells)) =
      runGrid quickFind (cellsRun (.absolute 2)) [6] (withGap 1 oneCell (withGap 1 oneCell threeCells)) :=
    runGrid_quartile _ _ _ _ [1, 1, 3, 3] (by decide +kernel) (by
      unfold percentile
      rw [List.mergeSort_of_pairwise (by decide +kernel)]
      decide +kernel)
  have h1 : (match runGrid quickFind (cellsRun (.absolute 1)) [4] (withGap 1 oneCell (withGap 1 oneCell [])) with
    | .ok (_, [_, _, g, _]) => decide (0 < g 0) | _ => false) = true := by decide +kernel
  have h2 : (match runGrid quickFind (cellsRun (.absolute 2)) [6] (withGap 1 oneCell (withGap 1 oneCell threeCells)) with
    | .ok (_, [_, _, g, _, _, _]) => decide (g 0 = 0) | _ => false) = true := by decide +kernel
  rw [e1, e2]
  split at h1
  · rename_i pre a b g c hr
    split at h2
    · rename_i pre' a' b' g' c' d' e' hr'
      exact ⟨_, _, _, _, g, g', hr, hr', rfl, rfl, of_decide_eq_true h1, of_decide_eq_true h2⟩
    · cases h2
  · cases h1

end MarEx.Props
