import Verif.Props.Separate
import Verif.Props.Workflow
/-! C199: what happens far away does not matter to an event. -/
namespace MarEx.Spec

/-- Cell `j` lies at most `d` rows and `d` columns from cell `i`. For global data rows and columns are counted around (rows too: hole filling joins the
first row to the last one, C132). -/
def InBox (regional : Bool) (ny nx d : Nat) (i j : Fin (ny * nx)) : Prop :=
  ∃ dy dx : Int, dy.natAbs ≤ d ∧ dx.natAbs ≤ d ∧
    ((j.val / nx : Nat) : Int) = moved regional ny (i.val / nx) dy ∧ ((j.val % nx : Nat) : Int) = moved regional nx (i.val % nx) dx

/-- Two records have the same extremes, at all steps, in the box of `d` cells around cell `i`. -/
def SameWithin (regional : Bool) (ny nx d : Nat) (data data' : List (Fin (ny * nx) → Bool)) (i : Fin (ny * nx)) : Prop :=
  ∀ t j, InBox regional ny nx d i j → (IsExtreme data t j ↔ IsExtreme data' t j)

end MarEx.Spec

namespace MarEx.Props
open MarEx Spec

/-! ### Boxes -/

theorem moved_trans (regional : Bool) {m : Nat} (hm : 0 < m) {k k' : Nat} {d e : Int} (h : (k' : Int) = moved regional m k d) (hk : k < m) :
    ∃ z : Int, z.natAbs ≤ d.natAbs + e.natAbs ∧ moved regional m k z = moved regional m k' e := by
  cases regional with
  | true =>
    simp only [moved, if_true] at h ⊢
    exact ⟨max 0 (min ((m : Int) - 1) (k' + e)) - k, by omega, by omega⟩
  | false =>
    simp only [moved, Bool.false_eq_true, if_false] at h ⊢
    refine ⟨d + e, by omega, ?_⟩
    rw [h, Int.emod_add_emod, Int.add_assoc]

theorem cell_rows {ny nx : Nat} (i : Fin (ny * nx)) : 0 < nx ∧ 0 < ny ∧ i.val / nx < ny ∧ i.val % nx < nx := by
  have hpos : 0 < ny * nx := Nat.lt_of_le_of_lt (Nat.zero_le _) i.isLt
  have hnx : 0 < nx := Nat.pos_of_mul_pos_left hpos
  exact ⟨hnx, Nat.pos_of_mul_pos_right hpos, (Nat.div_lt_iff_lt_mul hnx).mpr i.isLt, Nat.mod_lt _ hnx⟩

theorem inBox_trans {regional : Bool} {ny nx d e : Nat} {i j k : Fin (ny * nx)} (h : InBox regional ny nx d i j) (h' : InBox regional ny nx e j k) :
    InBox regional ny nx (d + e) i k := by
  obtain ⟨hnx, hny, h1, h2⟩ := cell_rows i
  obtain ⟨dy, dx, hdy, hdx, hr, hc⟩ := h
  obtain ⟨ey, ex, hey, hex, hr', hc'⟩ := h'
  obtain ⟨zy, hzy, ey'⟩ := moved_trans regional hny (e := ey) hr h1
  obtain ⟨zx, hzx, ex'⟩ := moved_trans regional hnx (e := ex) hc h2
  exact ⟨zy, zx, by omega, by omega, by rw [ey', hr'], by rw [ex', hc']⟩

theorem inBox_mono {regional : Bool} {ny nx d e : Nat} {i j : Fin (ny * nx)} (h : InBox regional ny nx d i j) (hde : d ≤ e) : InBox regional ny nx e i j := by
  obtain ⟨dy, dx, h1, h2, h3⟩ := h
  exact ⟨dy, dx, by omega, by omega, h3⟩

theorem moved_self (regional : Bool) {m k : Nat} (hk : k < m) : moved regional m k 0 = (k : Int) := by
  unfold moved
  split
  · omega
  · rw [Int.add_zero, Int.emod_eq_of_lt (by omega) (by omega)]

theorem moved_to (regional : Bool) {m k l : Nat} (hl : l < m) : moved regional m k ((l : Int) - k) = (l : Int) := by
  unfold moved
  rw [show (k : Int) + ((l : Int) - k) = l by omega]
  split
  · omega
  · rw [Int.emod_eq_of_lt (by omega) (by omega)]

theorem inBox_refl (regional : Bool) {ny nx : Nat} (d : Nat) (i : Fin (ny * nx)) : InBox regional ny nx d i i := by
  obtain ⟨hnx, hny, h1, h2⟩ := cell_rows i
  exact ⟨0, 0, by omega, by omega, (moved_self regional h1).symm, (moved_self regional h2).symm⟩

theorem touch_inBox {regional : Bool} {ny nx : Nat} {i j : Fin (ny * nx)} (h : Touch regional nx i j) : InBox regional ny nx 1 i j := by
  obtain ⟨hnx, hny, h1, h2⟩ := cell_rows i
  obtain ⟨-, -, h3, h4⟩ := cell_rows j
  obtain ⟨hr, d, hd, hc⟩ := h
  refine ⟨(j.val / nx : Nat) - (i.val / nx : Nat), d, by push_cast at hr ⊢; omega, hd, ?_, ?_⟩
  · exact (moved_to regional h3).symm
  · unfold moved
    cases regional <;> simp only [if_true, Bool.false_eq_true, if_false] at hc ⊢
    · exact hc
    · omega

theorem touch_symm {n : Nat} {regional : Bool} {nx : Nat} {i j : Fin n} (hnx : 0 < nx) (h : Touch regional nx i j) : Touch regional nx j i := by
  obtain ⟨hr, d, hd, hc⟩ := h
  refine ⟨by omega, -d, by omega, ?_⟩
  cases regional <;> simp only [if_true, Bool.false_eq_true, if_false] at hc ⊢
  · rw [hc, Int.emod_add_emod, Int.add_neg_cancel_right, Int.emod_eq_of_lt (by omega) (by have := Nat.mod_lt i.val hnx; omega)]
  · omega

theorem touch_self {n : Nat} {nx : Nat} (hnx : 0 < nx) (regional : Bool) (i : Fin n) : Touch regional nx i i := by
  refine ⟨by simp, 0, by simp, ?_⟩
  have := Nat.mod_lt i.val hnx
  split
  · simp
  · rw [Int.add_zero, Int.emod_eq_of_lt (by omega) (by omega)]

/-! ### Filling looks at a box -/

theorem fillFrameGrid_local {regional : Bool} {ny nx : Nat} (mask : Fin (ny * nx) → Bool) (R : Nat) (f f' : Fin (ny * nx) → Bool) (i : Fin (ny * nx))
    (h : ∀ j, InBox regional ny nx (4 * R) i j → f j = f' j) : fillFrameGrid regional ny nx mask R f i = fillFrameGrid regional ny nx mask R f' i := by
  obtain ⟨hnx, hny, h1, h2⟩ := cell_rows i
  have himg : ∀ dy dx : Int, dy.natAbs ≤ 4 * R → dx.natAbs ≤ 4 * R →
      toImg ny nx f (moved regional ny (i.val / nx) dy) (moved regional nx (i.val % nx) dx) =
      toImg ny nx f' (moved regional ny (i.val / nx) dy) (moved regional nx (i.val % nx) dx) := by
    intro dy dx hy hx
    have r1 := moved_range regional hny (i.val / nx) dy
    have r2 := moved_range regional hnx (i.val % nx) dx
    have key : ∀ f f' : Fin (ny * nx) → Bool, (∀ j, InBox regional ny nx (4 * R) i j → f j = f' j) →
        toImg ny nx f (moved regional ny (i.val / nx) dy) (moved regional nx (i.val % nx) dx) = true →
        toImg ny nx f' (moved regional ny (i.val / nx) dy) (moved regional nx (i.val % nx) dx) = true := by
      intro f f' h ht
      unfold toImg at ht ⊢
      split at ht
      · rename_i hlt
        rw [dif_pos hlt, ← h]
        · exact ht
        · have hx' : (moved regional nx (i.val % nx) dx).toNat < nx := by omega
          refine ⟨dy, dx, hy, hx, ?_, ?_⟩
          · show (((_ * nx + _) / nx : Nat) : Int) = _
            rw [Nat.mul_comm, Nat.mul_add_div (by omega), Nat.div_eq_of_lt hx']
            omega
          · show (((_ * nx + _) % nx : Nat) : Int) = _
            rw [Nat.mul_comm, Nat.mul_add_mod, Nat.mod_eq_of_lt hx']
            omega
      · cases ht
    rw [Bool.eq_iff_iff]
    exact ⟨key f f' h, key f' f fun j hj => (h j hj).symm⟩
  unfold fillFrameGrid ofImg fillHolesGrid
  dsimp only
  congr 1
  split
  · have := himg 0 0 (by omega) (by omega)
    rwa [moved_self regional h1, moved_self regional h2] at this
  · refine SameNear.openClose R ?_ (decide_eq_true (by have := Int.natCast_nonneg (i.val / nx); have := Int.natCast_nonneg (i.val % nx); push_cast at *; omega))
    intro dy dx b1 b2 b3 b4
    refine ⟨?_, rfl⟩
    unfold readImg
    congr 1
    have e : ∀ (m k : Nat) (d : Int), padIndex regional m (2 * R) ((k : Int) + 2 * R + d) = moved regional m k d := by
      intro m k d
      unfold padIndex moved
      rw [show (k : Int) + 2 * R + d - 2 * R = k + d by omega]
    unfold padImg
    rw [e, e]
    exact himg dy dx (by omega) (by omega)

theorem eq_of_extreme_iff {n : Nat} {data data' : List (Fin n → Bool)} {t : Nat} {d d' : Fin n → Bool}
    (hd : data[t]? = some d) (hd' : data'[t]? = some d') {j : Fin n} (h : IsExtreme data t j ↔ IsExtreme data' t j) : d j = d' j := by
  unfold IsExtreme at h
  rw [hd, hd'] at h
  simp only [Option.some.injEq, exists_eq_left'] at h
  exact Bool.eq_iff_iff.2 h

theorem map_local {regional : Bool} {ny nx : Nat} (mask : Fin (ny * nx) → Bool) (R : Nat) (data data' : List (Fin (ny * nx) → Bool))
    (hlen : data.length = data'.length) (i : Fin (ny * nx)) (h : SameWithin regional ny nx (4 * R) data data' i) (t : Nat) :
    IsExtreme (data.map (fillFrameGrid regional ny nx mask R)) t i ↔ IsExtreme (data'.map (fillFrameGrid regional ny nx mask R)) t i := by
  by_cases ht : t < data.length
  · have hd := List.getElem?_eq_getElem ht
    have hd' := List.getElem?_eq_getElem (hlen ▸ ht)
    have := fillFrameGrid_local mask R data[t] (data'[t]'(hlen ▸ ht)) i fun j hj => eq_of_extreme_iff hd hd' (h t j hj)
    unfold IsExtreme
    rw [List.getElem?_map, List.getElem?_map, hd, hd']
    simp only [Option.map_some, Option.some.injEq, exists_eq_left']
    rw [this]
  · unfold IsExtreme
    rw [List.getElem?_eq_none (by rw [List.length_map]; omega), List.getElem?_eq_none (by rw [List.length_map]; omega)]

theorem closeTimeGaps_local {n : Nat} (T : Nat) (hT : T % 2 = 0) (fs fs' : List (Fin n → Bool)) (i : Fin n)
    (h : ∀ t, IsExtreme fs t i ↔ IsExtreme fs' t i) (t : Nat) : IsExtreme (closeTimeGaps T fs) t i ↔ IsExtreme (closeTimeGaps T fs') t i := by
  have h1 := (C01_time_gaps_filled_exactly T hT fs).2 t i
  have h2 := (C01_time_gaps_filled_exactly T hT fs').2 t i
  have h : ∀ t, ExtremeAt fs t i ↔ ExtremeAt fs' t i := h
  show ExtremeAt _ t i ↔ ExtremeAt _ t i
  rw [h1, h2]
  unfold InGap
  simp only [h]

/-- The filled record at a cell depends on the record within `6 R_fill` cells. -/
theorem fillStagesGrid_local {ny nx : Nat} (p : GridRun ny nx) (hT : p.T % 2 = 0) (data data' : List (Fin (ny * nx) → Bool))
    (hlen : data.length = data'.length) (i : Fin (ny * nx)) (h : SameWithin p.regional ny nx (6 * p.R) data data' i) (t : Nat) :
    IsExtreme (fillStagesGrid p data) t i ↔ IsExtreme (fillStagesGrid p data') t i := by
  unfold fillStagesGrid fillTimeGaps
  split
  · exact map_local p.mask p.R data data' hlen i (fun t j hj => h t j (inBox_mono hj (by omega))) t
  · refine map_local p.mask (p.R / 2) _ _ (by rw [length_closeTimeGaps, length_closeTimeGaps, List.length_map, List.length_map, hlen]) i ?_ t
    intro t j hj
    refine closeTimeGaps_local p.T hT _ _ j (fun t => ?_) t
    exact map_local p.mask p.R data data' hlen j (fun t k hk => h t k (inBox_mono (inBox_trans hj hk) (by omega))) t

/-! ### Objects look at their own cells and the cells they touch -/

/-- A chain of at most `k` links. -/
def ChainOf {V : Type} (E : V → V → Prop) : Nat → V → V → Prop
  | 0, a, b => a = b
  | k + 1, a, b => ChainOf E k a b ∨ ∃ c, ChainOf E k a c ∧ (E c b ∨ E b c)

theorem ChainOf.linked {V : Type} {E : V → V → Prop} : ∀ {k : Nat} {a b : V}, ChainOf E k a b → Linked E a b
  | 0, _, _, h => h ▸ .refl _
  | _ + 1, _, _, .inl h => ChainOf.linked h
  | _ + 1, _, _, .inr ⟨_, h, .inl e⟩ => .fwd (ChainOf.linked h) e
  | _ + 1, _, _, .inr ⟨_, h, .inr e⟩ => .bwd (ChainOf.linked h) e

open Classical in
/-- In a cluster of `m` cells, every cell is at most `m` links from every other. -/
theorem chain_of_linked {n : Nat} {E : Fin n → Fin n → Prop} {i : Fin n} {m : Nat} (hm : (Finset.univ.filter fun j => Linked E i j).card = m)
    {j : Fin n} (h : Linked E i j) : ChainOf E m i j := by
  have key : ∀ k, k + 1 ≤ (Finset.univ.filter fun j => ChainOf E k i j).card ∨ ∀ j, Linked E i j → ChainOf E k i j := by
    intro k
    induction k with
    | zero =>
      left
      refine Finset.card_pos.2 ⟨i, ?_⟩
      rw [Finset.mem_filter]
      exact ⟨Finset.mem_univ _, rfl⟩
    | succ k ih =>
      rcases ih with ih | ih
      · by_cases heq : ∀ j, ChainOf E (k + 1) i j → ChainOf E k i j
        · right
          intro j hj
          induction hj with
          | refl => exact .inl (heq i (by clear ih heq; induction k with | zero => exact .inl rfl | succ k ih => exact .inl ih))
          | fwd _ e ih' => exact .inr ⟨_, heq _ ih', .inl e⟩
          | bwd _ e ih' => exact .inr ⟨_, heq _ ih', .inr e⟩
        · left
          push Not at heq
          obtain ⟨x, hx, hx'⟩ := heq
          refine Nat.lt_of_le_of_lt ih (Finset.card_lt_card ⟨fun y hy => ?_, fun hsub => hx' ?_⟩)
          · simp only [Finset.mem_filter, Finset.mem_univ, true_and] at hy ⊢
            exact .inl hy
          · have := hsub (x := x) (by simpa using hx)
            simpa using this
      · right
        exact fun j hj => .inl (ih j hj)
  rcases key m with hk | hk
  · have : (Finset.univ.filter fun j => ChainOf E m i j).card ≤ (Finset.univ.filter fun j => Linked E i j).card :=
      Finset.card_le_card fun y hy => by
        simp only [Finset.mem_filter, Finset.mem_univ, true_and] at hy ⊢
        exact hy.linked
    omega
  · exact hk j h

theorem chain_inBox {regional : Bool} {ny nx : Nat} (hnx : 0 < nx) {D : List (Fin (ny * nx) → Bool)} {t : Nat} : ∀ {k : Nat} {i j : Fin (ny * nx)},
    ChainOf (JoinedInStep regional nx D t) k i j → InBox regional ny nx k i j
  | 0, i, _, h => h ▸ inBox_refl regional 0 i
  | k + 1, _, _, .inl h => inBox_mono (chain_inBox hnx h) (by omega)
  | _ + 1, _, _, .inr ⟨_, h, .inl e⟩ => inBox_trans (chain_inBox hnx h) (touch_inBox e.1)
  | _ + 1, _, _, .inr ⟨_, h, .inr e⟩ => inBox_trans (chain_inBox hnx h) (touch_inBox (touch_symm hnx e.1))

/-- Two records that agree on an object and on the cells it touches have the same object there. -/
theorem same_object {n : Nat} {regional : Bool} {nx : Nat} (hnx : 0 < nx) {F F' : List (Fin n → Bool)} {t : Nat} {i : Fin n}
    (h : ∀ j, Linked (JoinedInStep regional nx F t) i j → ∀ k, k = j ∨ Touch regional nx j k → (IsExtreme F t k ↔ IsExtreme F' t k)) (j : Fin n) :
    Linked (JoinedInStep regional nx F t) i j ↔ Linked (JoinedInStep regional nx F' t) i j := by
  constructor
  · intro hl
    induction hl with
    | refl => exact .refl _
    | fwd h1 e ih => exact .fwd ih ⟨e.1, (h _ h1 _ (.inl rfl)).1 e.2.1, (h _ h1 _ (.inr e.1)).1 e.2.2⟩
    | bwd h1 e ih => exact .bwd ih ⟨e.1, (h _ h1 _ (.inr (touch_symm hnx e.1))).1 e.2.1, (h _ h1 _ (.inl rfl)).1 e.2.2⟩
  · intro hl
    induction hl with
    | refl => exact .refl _
    | fwd h1 e ih => exact .fwd ih ⟨e.1, (h _ ih _ (.inl rfl)).2 e.2.1, (h _ ih _ (.inr e.1)).2 e.2.2⟩
    | bwd h1 e ih => exact .bwd ih ⟨e.1, (h _ ih _ (.inr (touch_symm hnx e.1))).2 e.2.1, (h _ ih _ (.inl rfl)).2 e.2.2⟩

open Classical in
/-- What the absolute area filter keeps, once an earlier step has an object: cells of clusters of at least `a` cells. -/
theorem kept_iff_cluster {n : Nat} (cc : Labeller) (hcc : CorrectLabeller cc) {nx : Nat} (hnx : 0 < nx) (regional : Bool) (a : ℚ)
    (F : List (Fin n → Bool)) (r : FilterResult n) (hr : filterGrid (.absolute a) (identifyObjectsGrid cc false regional nx F) = .ok r)
    (t : Nat) (s : Nat) (hs : s < t) (i₀ : Fin n) (hi : IsExtreme F s i₀) (i : Fin n) :
    IsExtreme r.field t i ↔ IsExtreme F t i ∧ a ≤ ((Finset.univ.filter fun j => Linked (JoinedInStep regional nx F t) i j).card : ℚ) := by
  set labels := identifyObjectsGrid cc false regional nx F with hlab
  have hll : labels.length = F.length := by rw [hlab, length_identify]
  have hlen := (filterGrid_sub hr).1
  by_cases ht : t < F.length
  · have hu : UniqueLabels labels := by
      intro t u f f' hf hf' i j h0 he
      exact ((C63_grid_objects_are_components cc hcc regional nx hnx F t u f f' hf hf' i j).2.mp ⟨h0, he⟩).1
    have hft := List.getElem?_eq_getElem (hll.symm ▸ ht : t < labels.length)
    generalize labels[t] = f at hft
    obtain ⟨k, hk, hki⟩ := C07_keeps_exactly_large_partial labels hu _ r hr t f hft
    have cf := fun i j => C63_grid_objects_are_components cc hcc regional nx hnx F t t f f hft hft i j
    have hnf : ∀ i, ¬ IsFirst labels t (f i) := by
      intro i hF
      have hsl : s < labels.length := by rw [hll]; omega
      have := ((C63_grid_objects_are_components cc hcc regional nx hnx F s s _ _ (List.getElem?_eq_getElem hsl) (List.getElem?_eq_getElem hsl) i₀ i₀).1).2 hi
      have hz := hF.1 s _ hs (List.getElem?_eq_getElem hsl) i₀
      exact absurd (hz ▸ this) (lt_irrefl 0)
    have hsize : 0 < f i → size f (f i) = (Finset.univ.filter fun j => Linked (JoinedInStep regional nx F t) i j).card := by
      intro h0
      unfold size
      congr 1
      refine Finset.filter_congr fun j _ => ?_
      constructor
      · exact fun hj => ((cf i j).2.mp ⟨h0, hj.symm⟩).2.2.2
      · intro hl
        have hj := linked_last (P := IsExtreme F t) (fun x y hxy => hxy.2) ((cf i i).1.mp h0) hl
        exact ((cf i j).2.mpr ⟨rfl, (cf i i).1.mp h0, hj, hl⟩).2.symm
    have : IsExtreme r.field t i ↔ k i = true := by
      unfold IsExtreme
      rw [hk]
      simp
    rw [this, hki, absolute_threshold_grid hr, ← (cf i i).1]
    constructor
    · rintro ⟨h1, h2, -⟩
      exact ⟨h1, hsize h1 ▸ h2⟩
    · rintro ⟨h1, h2⟩
      exact ⟨h1, (hsize h1).symm ▸ h2, hnf i⟩
  · constructor
    · rintro ⟨d, hd, -⟩
      have := (List.getElem?_eq_some_iff.1 hd).1
      omega
    · rintro ⟨⟨d, hd, -⟩, -⟩
      have := (List.getElem?_eq_some_iff.1 hd).1
      omega

/-- Events without merging are the clusters of the preprocessed field. -/
theorem sameEvent_iff_cluster {ny nx : Nat} (cc : Labeller) (hcc : CorrectLabeller cc) (hnx : 0 < nx) (p : GridRun ny nx) (hm : p.allowMerging = false)
    (chunks : List Nat) (data pre : List (Fin (ny * nx) → Bool)) (ids : List (Frame (ny * nx))) (h : runGrid cc p chunks data = .ok (pre, ids))
    (t u : Nat) (i j : Fin (ny * nx)) : SameEvent ids t i u j ↔
      IsExtreme pre t i ∧ IsExtreme pre u j ∧ Linked (JoinedInTime p.regional nx pre) (t, i) (u, j) := by
  have hids : ids = trackingGrid cc p chunks pre := by
    unfold runGrid at h
    split at h
    · cases h
    · cases h; rfl
  have hlen : ids.length = pre.length := by
    rw [hids]
    unfold trackingGrid
    rw [hm]
    exact length_identify ..
  have key := (C64_no_merging_events cc hcc hnx p hm chunks pre).1
  rw [← hids] at key
  constructor
  · rintro ⟨f, g, hf, hg, h0, he⟩
    exact ((key t u f g hf hg i j).2).1 ⟨h0, he⟩
  · intro hl
    have hl' := hl
    obtain ⟨⟨d, hd, -⟩, ⟨e, he, -⟩, -⟩ := hl'
    have ht : t < ids.length := by rw [hlen]; exact (List.getElem?_eq_some_iff.1 hd).1
    have hu : u < ids.length := by rw [hlen]; exact (List.getElem?_eq_some_iff.1 he).1
    obtain ⟨h0, h1⟩ := ((key t u _ _ (List.getElem?_eq_getElem ht) (List.getElem?_eq_getElem hu) i j).2).2 hl
    exact ⟨_, _, List.getElem?_eq_getElem ht, List.getElem?_eq_getElem hu, h0, h1⟩

/-- **C199** (partial). Structured grids, `allow_merging = False`, `area_filter_absolute = a`. Take an event of a run and change the extremes of the record as
you like, at any steps, at cells that lie more than `6 R_fill + ⌈a⌉ + 1` rows or columns from every cell of the event. The second run has the same event: the
same cells at the same steps, and none besides. Missing: `area_filter_quartile` (`C199_quartile_fails`), events that begin before both runs have had another
one (the first object of a record is dropped, C07), `allow_merging = True` (`C199_overlap_fails`; `C199_far_away_merging_partial`) and meshes (`C199_mesh_far_away_partial`). -/
theorem C199_far_away_partial {ny nx : Nat} (cc : Labeller) (hcc : CorrectLabeller cc) (hnx : 0 < nx) (p : GridRun ny nx) (hm : p.allowMerging = false)
    (hT : p.T % 2 = 0) (a : ℚ) (hc : p.criterion = .absolute a) (data data' : List (Fin (ny * nx) → Bool)) (hlen : data.length = data'.length)
    (chunks chunks' : List Nat) (pre pre' : List (Fin (ny * nx) → Bool)) (ids ids' : List (Frame (ny * nx)))
    (h : runGrid cc p chunks data = .ok (pre, ids)) (h' : runGrid cc p chunks' data' = .ok (pre', ids'))
    (t : Nat) (i : Fin (ny * nx)) (hev : SameEvent ids t i t i)
    (hsame : ∀ u j, SameEvent ids t i u j → SameWithin p.regional ny nx (6 * p.R + ⌈a⌉₊ + 1) data data' j)
    (s s' : Nat) (k k' : Fin (ny * nx)) (hk : SameEvent ids s k s k) (hk' : SameEvent ids' s' k' s' k')
    (hs : ∀ u j, SameEvent ids t i u j → s + 1 < u ∧ s' + 1 < u) (u : Nat) (j : Fin (ny * nx)) :
    SameEvent ids t i u j ↔ SameEvent ids' t i u j := by
  classical
  have ev := sameEvent_iff_cluster cc hcc hnx p hm chunks data pre ids h
  have ev' := sameEvent_iff_cluster cc hcc hnx p hm chunks' data' pre' ids' h'
  obtain ⟨r, hr, rfl⟩ := runGrid_parts h
  obtain ⟨r', hr', rfl⟩ := runGrid_parts h'
  unfold preprocessGrid at hr hr'
  rw [hc] at hr hr'
  have hloc := fun i hi => fillStagesGrid_local p hT data data' hlen i hi
  set F := fillStagesGrid p data with hF
  set F' := fillStagesGrid p data' with hF'
  have sub : ∀ {F : List (Fin (ny * nx) → Bool)} {r : FilterResult (ny * nx)},
      filterGrid (.absolute a) (identifyObjectsGrid cc false p.regional nx F) = .ok r → ∀ {s k}, IsExtreme r.field s k → IsExtreme F s k := by
    intro F r hr s k hx
    obtain ⟨hl, hsub⟩ := filterGrid_sub hr
    obtain ⟨d, hd, hdk⟩ := hx
    have hsl : s < (identifyObjectsGrid cc false p.regional nx F).length := by rw [← hl]; exact (List.getElem?_eq_some_iff.1 hd).1
    have hg := List.getElem?_eq_getElem hsl
    exact ((C63_grid_objects_are_components cc hcc p.regional nx hnx F s s _ _ hg hg k k).1).1 (hsub s _ d hg hd k hdk)
  have hsk : IsExtreme F s k := sub hr ((ev s s k k).1 hk).1
  have hsk' : IsExtreme F' s' k' := sub hr' ((ev' s' s' k' k').1 hk').1
  have kept := fun v (hv : s < v) j => kept_iff_cluster cc hcc hnx p.regional a F r hr v s hv k hsk j
  have kept' := fun v (hv : s' < v) j => kept_iff_cluster cc hcc hnx p.regional a F' r' hr' v s' hv k' hsk' j
  -- around a cell of the event the two preprocessed fields agree
  have key : ∀ u i₁, SameEvent ids t i u i₁ → ∀ (v : Nat) j, ((u : Int) - v).natAbs ≤ 1 → (j = i₁ ∨ Touch p.regional nx i₁ j) →
      (IsExtreme r.field v j ↔ IsExtreme r'.field v j) := by
    intro u i₁ he v j huv hj
    obtain ⟨h1, h2⟩ := hs u i₁ he
    have hbox : InBox p.regional ny nx 1 i₁ j := by
      rcases hj with rfl | hj
      · exact inBox_refl _ _ _
      · exact touch_inBox hj
    have near : ∀ d x, d ≤ ⌈a⌉₊ + 1 → InBox p.regional ny nx d i₁ x → (IsExtreme F v x ↔ IsExtreme F' v x) := by
      intro d x hd hx
      exact hloc x (fun w y hy => hsame u i₁ he w y (inBox_mono (inBox_trans hx hy) (by omega))) v
    have hFj := near 1 j (by omega) hbox
    have same : (∀ x, Linked (JoinedInStep p.regional nx F v) j x ↔ Linked (JoinedInStep p.regional nx F' v) j x) →
        (IsExtreme r.field v j ↔ IsExtreme r'.field v j) := by
      intro hx
      rw [kept v (by omega), kept' v (by omega), hFj]
      simp only [hx]
    by_cases hp : IsExtreme r.field v j
    · refine same (same_object hnx fun x hx y hy => ?_)
      obtain ⟨hFx, hcard⟩ := (kept v (by omega) j).1 hp
      have hkept : ∀ z, Linked (JoinedInStep p.regional nx F v) j z → IsExtreme r.field v z := by
        intro z hz
        refine (kept v (by omega) z).2 ⟨linked_last (P := IsExtreme F v) (fun x y hxy => hxy.2) hFx hz, ?_⟩
        have : ∀ y, Linked (JoinedInStep p.regional nx F v) z y ↔ Linked (JoinedInStep p.regional nx F v) j y :=
          fun y => ⟨fun hy => hz.trans hy, fun hy => hz.symm.trans hy⟩
        simp only [this]
        exact hcard
      have hlink : ∀ z, Linked (JoinedInStep p.regional nx F v) j z → Linked (JoinedInTime p.regional nx r.field) (v, j) (v, z) := by
        intro z hz
        induction hz with
        | refl => exact .refl _
        | fwd h1 e ih => exact .fwd ih ⟨by simp, e.1, hkept _ h1, hkept _ (.fwd h1 e)⟩
        | bwd h1 e ih => exact .bwd ih ⟨by simp, e.1, hkept _ (.bwd h1 e), hkept _ h1⟩
      obtain ⟨e1, e2, e3⟩ := (ev t u i i₁).1 he
      have hstep : Linked (JoinedInTime p.regional nx r.field) (u, i₁) (v, j) := by
        rcases hj with rfl | hj
        · refine .fwd (.refl _) ⟨huv, touch_self hnx _ j, e2, hp⟩
        · exact .fwd (.refl _) ⟨huv, hj, e2, hp⟩
      have hex : SameEvent ids t i v x := (ev t v i x).2 ⟨e1, hkept x hx, (e3.trans hstep).trans (hlink x hx)⟩
      have hxy : InBox p.regional ny nx 1 x y := by
        rcases hy with rfl | hy
        · exact inBox_refl _ _ _
        · exact touch_inBox hy
      exact hloc y (fun w z hz => hsame v x hex w z (inBox_mono (inBox_trans hxy hz) (by omega))) v
    · by_cases hFx : IsExtreme F v j
      · refine same (same_object hnx fun x hx y hy => ?_)
        have hsmall : ((Finset.univ.filter fun z => Linked (JoinedInStep p.regional nx F v) j z).card : ℚ) < a := by
          by_contra hge
          exact hp ((kept v (by omega) j).2 ⟨hFx, not_lt.1 hge⟩)
        have hch := chain_inBox hnx (chain_of_linked rfl hx)
        have hlt : (Finset.univ.filter fun z => Linked (JoinedInStep p.regional nx F v) j z).card < ⌈a⌉₊ := Nat.lt_ceil.2 hsmall
        have hxy : InBox p.regional ny nx 1 x y := by
          rcases hy with rfl | hy
          · exact inBox_refl _ _ _
          · exact touch_inBox hy
        exact near _ y (by omega) (inBox_trans (inBox_trans hbox hch) hxy)
      · rw [kept v (by omega), kept' v (by omega), ← hFj]
        simp only [hFx, false_and]
  -- chains of touching event cells are the same
  have hself := (ev t t i i).1 hev
  have hself' : IsExtreme r'.field t i := (key t i hev t i (by simp) (.inl rfl)).1 hself.1
  constructor
  · intro he
    obtain ⟨e1, e2, e3⟩ := (ev t u i j).1 he
    have all : ∀ b : Nat × Fin (ny * nx), Linked (JoinedInTime p.regional nx r.field) (t, i) b →
        SameEvent ids t i b.1 b.2 ∧ Linked (JoinedInTime p.regional nx r'.field) (t, i) b := by
      intro b hb
      induction hb with
      | refl => exact ⟨hev, .refl _⟩
      | @fwd b c h1 e ih =>
        have hc : SameEvent ids t i c.1 c.2 := (ev _ _ _ _).2 ⟨e1, e.2.2.2, .fwd h1 e⟩
        exact ⟨hc, .fwd ih.2 ⟨e.1, e.2.1, (key _ _ ih.1 _ _ (by simp) (.inl rfl)).1 e.2.2.1, (key _ _ hc _ _ (by simp) (.inl rfl)).1 e.2.2.2⟩⟩
      | @bwd b c h1 e ih =>
        have hc : SameEvent ids t i c.1 c.2 := (ev _ _ _ _).2 ⟨e1, e.2.2.1, .bwd h1 e⟩
        exact ⟨hc, .bwd ih.2 ⟨e.1, e.2.1, (key _ _ hc _ _ (by simp) (.inl rfl)).1 e.2.2.1, (key _ _ ih.1 _ _ (by simp) (.inl rfl)).1 e.2.2.2⟩⟩
    exact (ev' t u i j).2 ⟨hself', (key u j he u j (by simp) (.inl rfl)).1 e2, (all _ e3).2⟩
  · intro he
    obtain ⟨e1, e2, e3⟩ := (ev' t u i j).1 he
    have all : ∀ b : Nat × Fin (ny * nx), Linked (JoinedInTime p.regional nx r'.field) (t, i) b → SameEvent ids t i b.1 b.2 := by
      intro b hb
      induction hb with
      | refl => exact hev
      | @fwd b c h1 e ih =>
        have hb := (key _ _ ih b.1 b.2 (by simp) (.inl rfl)).2 e.2.2.1
        have hc := (key _ _ ih c.1 c.2 e.1 (.inr e.2.1)).2 e.2.2.2
        exact (ev _ _ _ _).2 ⟨hself.1, hc, .fwd ((ev _ _ _ _).1 ih).2.2 ⟨e.1, e.2.1, hb, hc⟩⟩
      | @bwd b c h1 e ih =>
        have hb := (key _ _ ih b.1 b.2 (by simp) (.inl rfl)).2 e.2.2.2
        have hc := (key _ _ ih c.1 c.2 (by have := e.1; omega) (.inr (touch_symm hnx e.2.1))).2 e.2.2.1
        exact (ev _ _ _ _).2 ⟨hself.1, hc, .bwd ((ev _ _ _ _).1 ih).2.2 ⟨e.1, e.2.1, hc, hb⟩⟩
    exact all _ e3

/-- A single cell at steps 0, 1 and 3 of six. -/
def loneCell : List (Fin (1 * 5) → Bool) :=
  [fun i => decide (i.val = 0), fun i => decide (i.val = 0), fun _ => false, fun i => decide (i.val = 0), fun _ => false, fun _ => false]

/-- The same, with two more extreme cells three columns away at the last three steps. -/
def loneCellFar : List (Fin (1 * 5) → Bool) :=
  [fun i => decide (i.val = 0), fun i => decide (i.val = 0), fun _ => false, fun i => decide (i.val = 0 ∨ 3 ≤ i.val), fun i => decide (3 ≤ i.val),
    fun i => decide (3 ≤ i.val)]

theorem loneCell_far (d : Nat) (hd : d ≤ 2) : SameWithin true 1 5 d loneCell loneCellFar 0 := by
  rintro t j ⟨dy, dx, -, hdx, -, hc⟩
  have hj : j.val < 3 := by
    have h5 : j.val < 5 := j.isLt
    rw [Nat.mod_eq_of_lt h5] at hc
    unfold moved at hc
    rw [if_pos rfl] at hc
    have h0 : ((((0 : Fin (1 * 5)).val % 5 : Nat)) : Int) = 0 := rfl
    rw [h0] at hc
    omega
  unfold IsExtreme
  match t with
  | 0 | 1 | 2 => rfl
  | 3 => simp [loneCell, loneCellFar]; omega
  | 4 | 5 => simp [loneCell, loneCellFar]; omega
  | t + 6 => simp [loneCell, loneCellFar]

-- the hypotheses of the theorem are met: the event of the fourth step, and an earlier one, in both runs
example : ∃ pre ids pre' ids', runGrid quickFind (cellsRun (.absolute 1)) [6] loneCell = .ok (pre, ids) ∧
    runGrid quickFind (cellsRun (.absolute 1)) [6] loneCellFar = .ok (pre', ids') ∧ SameEvent ids 3 0 3 0 ∧ SameEvent ids 1 0 1 0 ∧ SameEvent ids' 1 0 1 0 ∧
    (∀ u j, SameEvent ids 3 0 u j → 1 + 1 < u ∧ SameWithin true 1 5 (6 * 0 + ⌈(1 : ℚ)⌉₊ + 1) loneCell loneCellFar j) ∧
    SameEvent ids' 3 0 3 0 ∧ ∃ j, SameEvent ids' 3 j 3 j ∧ ¬ SameEvent ids' 3 0 3 j := by
  have h1 : (match runGrid quickFind (cellsRun (.absolute 1)) [6] loneCell with
    | .ok (_, [a, b, c, g, e, f]) => decide (0 < g 0 ∧ 0 < b 0 ∧ ∀ j, a j ≠ g 0 ∧ b j ≠ g 0 ∧ c j ≠ g 0 ∧ (j ≠ 0 → g j ≠ g 0) ∧ e j ≠ g 0 ∧ f j ≠ g 0)
    | _ => false) = true := by decide +kernel
  have h2 : (match runGrid quickFind (cellsRun (.absolute 1)) [6] loneCellFar with
    | .ok (_, [_, b, _, g, _, _]) => decide (0 < b 0 ∧ 0 < g 0 ∧ 0 < g 3 ∧ g 0 ≠ g 3) | _ => false) = true := by decide +kernel
  split at h1
  · rename_i pre a b c g e f hr
    split at h2
    · rename_i pre' a' b' c' g' e' f' hr'
      obtain ⟨k1, k2, k3⟩ := of_decide_eq_true h1
      obtain ⟨m1, m2, m3, m4⟩ := of_decide_eq_true h2
      refine ⟨_, _, _, _, hr, hr', ⟨g, g, rfl, rfl, k1, rfl⟩, ⟨b, b, rfl, rfl, k2, rfl⟩, ⟨b', b', rfl, rfl, m1, rfl⟩, ?_, ⟨g', g', rfl, rfl, m2, rfl⟩, 3,
        ⟨g', g', rfl, rfl, m3, rfl⟩, ?_⟩
      · rintro u j ⟨x, y, hx, hy, -, he⟩
        cases hx
        obtain ⟨n0, n1, n2, n3, n4, n5⟩ := k3 j
        match u with
        | 0 => cases hy; exact absurd he.symm n0
        | 1 => cases hy; exact absurd he.symm n1
        | 2 => cases hy; exact absurd he.symm n2
        | 3 =>
          cases hy
          have : j = 0 := by
            by_contra hne
            exact n3 hne he.symm
          subst this
          exact ⟨by omega, loneCell_far _ (by simp)⟩
        | 4 => cases hy; exact absurd he.symm n4
        | 5 => cases hy; exact absurd he.symm n5
        | u + 6 => cases hy
      · rintro ⟨x, y, hx, hy, -, he⟩
        cases hx
        cases hy
        exact m4 he
    · cases h2
  · cases h1

/-- **C199** negative: with the default `area_filter_quartile = 0.5` the threshold is that of the whole map: extremes three columns away (`R_fill` 0), after which
nothing within two cells of the event has changed at any step, take an event away. -/
theorem C199_quartile_fails : SameWithin true 1 5 2 loneCell loneCellFar 0 ∧ ∃ pre ids pre' ids' f f',
    runGrid quickFind (cellsRun (.quartile (1 / 2))) [6] loneCell = .ok (pre, ids) ∧
    runGrid quickFind (cellsRun (.quartile (1 / 2))) [6] loneCellFar = .ok (pre', ids') ∧
    ids[3]? = some f ∧ ids'[3]? = some f' ∧ 0 < f 0 ∧ f' 0 = 0 := by
  refine ⟨loneCell_far 2 le_rfl, ?_⟩
  have e1 : runGrid quickFind (cellsRun (.quartile (1 / 2))) [6] loneCell = runGrid quickFind (cellsRun (.absolute 1)) [6] loneCell :=
    runGrid_quartile _ _ _ _ [1, 1, 1] (by decide +kernel) (by
      unfold percentile
      rw [List.mergeSort_of_pairwise (by decide +kernel)]
      decide +kernel)
  have e2 : runGrid quickFind (cellsRun (.quartile (1 / 2))) [6] loneCellFar = runGrid quickFind (cellsRun (.absolute (3 / 2))) [6] loneCellFar :=
    runGrid_quartile _ _ _ _ [1, 1, 1, 2, 2, 2] (by decide +kernel) (by
      unfold percentile
      rw [List.mergeSort_of_pairwise (by decide +kernel)]
      decide +kernel)
  have h1 : (match runGrid quickFind (cellsRun (.absolute 1)) [6] loneCell with
    | .ok (_, [_, _, _, g, _, _]) => decide (0 < g 0) | _ => false) = true := by decide +kernel
  have h2 : (match runGrid quickFind (cellsRun (.absolute (3 / 2))) [6] loneCellFar with
    | .ok (_, [_, _, _, g, _, _]) => decide (g 0 = 0) | _ => false) = true := by decide +kernel
  rw [e1, e2]
  split at h1
  · rename_i pre a b c g d e hr
    split at h2
    · rename_i pre' a' b' c' g' d' e' hr'
      exact ⟨_, _, _, _, g, g', hr, hr', rfl, rfl, of_decide_eq_true h1, of_decide_eq_true h2⟩
    · cases h2
  · cases h1

end MarEx.Props
