import Verif.Props.LeftOut
/-! C198 on grids with `allow_merging = True`. -/
namespace MarEx.Props
open MarEx Spec

variable {n : Nat}

/-- The extremes of the steps `s, …, s + m - 1`, and nothing before and after. -/
theorem band_ownGroup {regional : Bool} {nx : Nat} (pre band : List (Fin n → Bool)) (s b : Nat) (hlen : pre.length = s + band.length + b)
    (hband : ∀ k, k < band.length → pre[s + k]? = band[k]?) (hbefore : ∀ t i, t + 1 = s → ¬ IsExtreme pre t i)
    (hafter : ∀ i, ¬ IsExtreme pre (s + band.length) i) : OwnGroup regional nx pre (around noExtremes s b band) := by
  have hx : ∀ t i, IsExtreme (around noExtremes s b band) t i ↔ IsExtreme pre t i ∧ s ≤ t ∧ t < s + band.length := by
    intro t i
    by_cases h1 : s ≤ t ∧ t < s + band.length
    · have e : (around noExtremes s b band)[t]? = pre[t]? := by
        have := getElem?_around_mid (noExtremes : Fin n → Bool) s b band (t - s) (by omega)
        have e2 := hband (t - s) (by omega)
        rw [show s + (t - s) = t by omega] at this e2
        rw [this, e2]
      unfold IsExtreme
      rw [e]
      exact ⟨fun h => ⟨h, h1⟩, fun h => h.1⟩
    · constructor
      · rintro ⟨d, hd, hi⟩
        exfalso
        have hl := (List.getElem?_eq_some_iff.mp hd).1
        rw [length_around] at hl
        rw [getElem?_around_out _ s b band t (by omega) hl] at hd
        cases hd
        simp [noExtremes] at hi
      · rintro ⟨_, h⟩
        exact absurd h h1
  refine ⟨by rw [length_around, hlen], fun t i h => ((hx t i).mp h).1, fun t i j _ hi hj => ?_, fun t i hi hj => ?_⟩
  · rw [hx, hx]
    exact and_congr (iff_of_true hi hj) Iff.rfl
  · rw [hx, hx]
    have n1 : t + 1 ≠ s := fun e => hbefore t i e hi
    have n2 : t + 1 ≠ s + band.length := fun e => hafter i (e ▸ hj)
    constructor
    · rintro ⟨_, h1, h2⟩; exact ⟨hj, by omega, by omega⟩
    · rintro ⟨_, h1, h2⟩; exact ⟨hi, by omega, by omega⟩

/-- The events of a band of steps with an empty step before and after are those of the band alone. -/
theorem band_events {ny nx : Nat} (cc : Labeller) (hcc : CorrectLabeller cc) (hord : NumbersInOrder cc) (hnx : 0 < nx) (p : GridRun ny nx)
    (hm : p.allowMerging = true) (wrap nn : Bool) (thr : ℚ) (cen : Frame (ny * nx) → Nat → ℚ × ℚ) (hcen : OfCells cen)
    (ht : p.track = gridCfg wrap nn ny nx thr cen) (chunks : List Nat) (pre band : List (Fin (ny * nx) → Bool)) (s b : Nat)
    (hch : ChunkLengths chunks pre.length) (hlen : pre.length = s + band.length + b)
    (hband : ∀ k, k < band.length → pre[s + k]? = band[k]?) (hbefore : ∀ t i, t + 1 = s → ¬ IsExtreme pre t i)
    (hafter : ∀ i, ¬ IsExtreme pre (s + band.length) i) (k l : Nat) (i j : Fin (ny * nx)) (hi : IsExtreme band k i) (hj : IsExtreme band l j) :
    SameEvent (trackingGrid cc p chunks pre) (s + k) i (s + l) j ↔
      SameEvent (trackGrid cc p.track [identifyObjectsGrid cc false p.regional nx band]).idField k i l j := by
  have hk := extremeAt_lt hi
  have hl := extremeAt_lt hj
  have hne : band ≠ [] := by rintro rfl; simp at hk
  have up : ∀ t i, IsExtreme band t i → IsExtreme (around noExtremes s b band) (s + t) i := by
    rintro t i ⟨d, hd, h⟩
    exact ⟨d, by rw [getElem?_around_mid _ s b band t (List.getElem?_eq_some_iff.mp hd).1]; exact hd, h⟩
  have h1 := (C204_group_tracked_alone cc hcc hord hnx p hm wrap nn thr cen hcen ht chunks pre _
    (band_ownGroup pre band s b hlen hband hbefore hafter)).2 (s + k) i (s + l) j (up k i hi)
  rw [← h1]
  have e : trackingGrid cc p chunks (around noExtremes s b band) =
      around noEvents s b (trackGrid cc p.track [identifyObjectsGrid cc false p.regional nx band]).idField := by
    unfold trackingGrid
    rw [if_pos hm, identifyObjectsGrid_around]
    have hne' : identifyObjectsGrid cc false p.regional nx band ≠ [] := by
      intro e
      have := congrArg List.length e
      rw [length_identify] at this
      exact hne (List.length_eq_zero_iff.mp this)
    refine (C190_objects_partial cc p.track s b [identifyObjectsGrid cc false p.regional nx band] _ ⟨hne', by simp⟩ ?_ ?_ ?_).1
    · apply chunksOf_two
      rw [length_around, length_identify, ← hlen]
      exact hch
    · simpa using hne'
    · rw [flatten_chunksOf]
      simp
  rw [e]
  have hll : (trackGrid cc p.track [identifyObjectsGrid cc false p.regional nx band]).idField.length = band.length := by
    have hu := (C63_grid_ids_unique cc hcc p.regional nx hnx band).1
    have h2 := (C21_tracking_keeps_support cc wrap nn ny nx thr cen [identifyObjectsGrid cc false p.regional nx band] (by simpa using hu)).1
    rw [ht, h2]
    simp [length_identify]
  unfold SameEvent
  rw [getElem?_around_mid _ s b _ k (by omega), getElem?_around_mid _ s b _ l (by omega)]

/-- **C198**, grids with `allow_merging = True`: the middle part `B` of a record with more than `T_fill` steps without extremes before and after it, tracked with
an absolute area threshold and time chunks of at least two steps (the first may be shorter): whatever comes before (as long as it has an object) and after, and
however both records are cut into chunks, the preprocessed extremes of the part are the same and so are its events.  Missing: as in `C198_middle_part_partial`,
the first part of a record and the quartile criterion; chunks of one step (`C190_one_step_chunk_fails`). -/
theorem C198_middle_part_merging_partial {ny nx : Nat} (cc : Labeller) (hcc : CorrectLabeller cc) (hord : NumbersInOrder cc) (hnx : 0 < nx) (p : GridRun ny nx)
    (hm : p.allowMerging = true) (wrap nn : Bool) (thr : ℚ) (cen : Frame (ny * nx) → Nat → ℚ × ℚ) (hcen : OfCells cen)
    (ht : p.track = gridCfg wrap nn ny nx thr cen) (hT : p.T % 2 = 0) (a : ℚ) (hc : p.criterion = .absolute a)
    (B X Y X' Y' : List (Fin (ny * nx) → Bool)) (g h g' h' : Nat) (hg : p.T < g) (hh : p.T < h) (hg' : p.T < g') (hh' : p.T < h') (chunks chunks' : List Nat)
    (hch : ChunkLengths chunks (X.length + g + B.length + h + Y.length)) (hch' : ChunkLengths chunks' (X'.length + g' + B.length + h' + Y'.length))
    (hX : ∃ r, preprocessGrid cc p X = .ok r) (hX' : ∃ r, preprocessGrid cc p X' = .ok r) :
    ∃ pre ids pre' ids', runGrid cc p chunks (withGap g X (withGap h B Y)) = .ok (pre, ids) ∧
      runGrid cc p chunks' (withGap g' X' (withGap h' B Y')) = .ok (pre', ids') ∧
      (∀ k, k < B.length → pre[X.length + g + k]? = pre'[X'.length + g' + k]?) ∧
      ∀ k l i j, k < B.length → l < B.length →
        (SameEvent ids (X.length + g + k) i (X.length + g + l) j ↔ SameEvent ids' (X'.length + g' + k) i (X'.length + g' + l) j) := by
  obtain ⟨pre, ids, pre', ids', hr, hr', hpre, -⟩ := C198_middle_part_partial cc hcc hnx p hT a hc B X Y X' Y' g h g' h' hg hh hg' hh' chunks chunks' hX hX'
  refine ⟨pre, ids, pre', ids', hr, hr', hpre, ?_⟩
  -- one record
  have one : ∀ (X Y : List (Fin (ny * nx) → Bool)) (g h : Nat), p.T < g → p.T < h → ∀ (chunks : List Nat) (pre : List (Fin (ny * nx) → Bool))
      (ids : List (Frame (ny * nx))), ChunkLengths chunks (X.length + g + B.length + h + Y.length) →
      runGrid cc p chunks (withGap g X (withGap h B Y)) = .ok (pre, ids) → ∀ band : List (Fin (ny * nx) → Bool), band.length = B.length →
      (∀ k, k < B.length → pre[X.length + g + k]? = band[k]?) → ∀ k l i j, k < B.length → l < B.length →
      (SameEvent ids (X.length + g + k) i (X.length + g + l) j ↔ IsExtreme band k i ∧ IsExtreme band l j ∧
        SameEvent (trackGrid cc p.track [identifyObjectsGrid cc false p.regional nx band]).idField k i l j) := by
    intro X Y g h hg hh chunks pre ids hch hr band hbl hband k l i j hk hl
    obtain ⟨l1, l2, hx⟩ := C65_grid_run cc hcc hnx p wrap nn thr cen ht chunks _ pre ids hr
    rw [length_withGap, length_withGap] at l1 l2
    have c1 := (C198_no_event_crosses cc hcc hnx p wrap nn thr cen ht hT g hg X (withGap h B Y) chunks pre ids hr).2
    have hassoc : withGap g X (withGap h B Y) = withGap h (withGap g X B) Y := by
      unfold withGap
      simp only [List.append_assoc]
    have c2 := (C198_no_event_crosses cc hcc hnx p wrap nn thr cen ht hT h hh (withGap g X B) Y chunks pre ids (hassoc ▸ hr)).2
    rw [length_withGap] at c2
    have hids : ids = trackingGrid cc p chunks pre := by
      unfold runGrid at hr
      split at hr
      · cases hr
      · cases hr; rfl
    have empty : ∀ t i, (∀ f, ids[t]? = some f → ∀ i, f i = 0) → ¬ IsExtreme pre t i := by
      intro t i h0 he
      have hlt : t < ids.length := by rw [l2, ← l1]; exact extremeAt_lt he
      have := ((hx t _ (List.getElem?_eq_getElem hlt) i).1).mpr he
      rw [h0 _ (List.getElem?_eq_getElem hlt) i] at this
      exact absurd this (Nat.lt_irrefl 0)
    have iff : ∀ k i, k < B.length → (IsExtreme pre (X.length + g + k) i ↔ IsExtreme band k i) := by
      intro k i hk
      unfold IsExtreme
      rw [hband k hk]
    have key : IsExtreme band k i → IsExtreme band l j → _ := fun hi hj =>
      band_events cc hcc hord hnx p hm wrap nn thr cen hcen ht chunks pre band (X.length + g) (h + Y.length)
        (by rw [l1]; convert hch using 1; omega) (by rw [l1, hbl]; omega) (by rw [hbl]; exact hband)
        (fun t i ht => empty t i (fun f hf => c1 t f (by omega) (by omega) hf))
        (fun i => empty _ i (fun f hf => c2 _ f (by omega) (by omega) hf)) k l i j hi hj
    rw [hids] at hx ⊢
    constructor
    · rintro ⟨f, f', hf, hf', h0, he⟩
      have hi := (iff k i hk).mp (((hx _ f hf i).1).mp h0)
      have hj := (iff l j hl).mp (((hx _ f' hf' j).1).mp (he ▸ h0))
      exact ⟨hi, hj, (key hi hj).mp ⟨f, f', hf, hf', h0, he⟩⟩
    · rintro ⟨hi, hj, hs⟩
      exact (key hi hj).mpr hs
  have hlen := (C65_grid_run cc hcc hnx p wrap nn thr cen ht chunks _ pre ids hr).1
  rw [length_withGap, length_withGap] at hlen
  have hbl : ((pre.drop (X.length + g)).take B.length).length = B.length := by
    rw [List.length_take, List.length_drop, hlen]
    omega
  have hb : ∀ k, k < B.length → pre[X.length + g + k]? = ((pre.drop (X.length + g)).take B.length)[k]? := by
    intro k hk
    rw [List.getElem?_take_of_lt hk, List.getElem?_drop]
  intro k l i j hk hl
  rw [one X Y g h hg hh chunks pre ids hch hr _ hbl hb k l i j hk hl,
    one X' Y' g' h' hg' hh' chunks' pre' ids' hch' hr' _ hbl (fun k hk => by rw [← hpre k hk]; exact hb k hk) k l i j hk hl]

/-- Cells 0 and 2 merge; cell 2 stays. -/
def midMerge : List (Fin (1 * 3) → Bool) := [fun i => i.val != 1, fun _ => true, cellsFrom 2 2]

-- non-vacuity: the part after a single cell, and after two steps with other cells, cut differently
example : (rowRun 3 true (1 / 3)).T < 1 ∧ (rowRun 3 true (1 / 3)).T % 2 = 0 ∧ OfCells (rowCen 3) ∧ ChunkLengths [2, 4] (1 + 1 + midMerge.length + 1 + 0) ∧
    ChunkLengths [1, 2, 3, 2] (2 + 1 + midMerge.length + 1 + 1) ∧
    (match preprocessGrid quickFind (rowRun 3 true (1 / 3)) [cellsFrom 1 1] with | .ok _ => true | .error _ => false) = true ∧
    (match preprocessGrid quickFind (rowRun 3 true (1 / 3)) [cellsFrom 0 0, fun i => i.val != 1] with | .ok _ => true | .error _ => false) = true ∧
    (match runGrid quickFind (rowRun 3 true (1 / 3)) [2, 4] (withGap 1 [cellsFrom 1 1] (withGap 1 midMerge [])) with
      | .ok (_, [_, _, a, b, c, _]) => decide (a 0 ≠ a 2 ∧ b 0 = a 0 ∧ b 2 = a 2 ∧ c 2 = a 2 ∧ 0 < c 2) | _ => false) = true ∧
    (match runGrid quickFind (rowRun 3 true (1 / 3)) [1, 2, 3, 2] (withGap 1 [cellsFrom 0 0, fun i => i.val != 1] (withGap 1 midMerge [cellsFrom 0 2])) with
      | .ok (_, [_, _, _, a, b, c, _, _]) => decide (a 0 ≠ a 2 ∧ b 0 = a 0 ∧ b 2 = a 2 ∧ c 2 = a 2 ∧ 0 < c 2) | _ => false) = true := by
  refine ⟨by decide, by decide, rowCen_ofCells 3, ⟨by decide, by decide, by decide⟩, ⟨by decide, by decide, by decide⟩, ?_⟩
  decide +kernel

end MarEx.Props
