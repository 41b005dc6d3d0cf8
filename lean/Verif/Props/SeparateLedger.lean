import Verif.Props.SeparateMerging
import Verif.Props.EmptyTables
/-! The merge ledger of a part of a record between two quiet times (C198). -/
namespace MarEx.Props
open MarEx MarEx.Spec

variable {n : Nat}

/-- The ledger of an event of a band of steps with an empty step before and after is that of the band alone, and is not filled before and after the band. -/
theorem band_ledger {ny nx : Nat} (cc : Labeller) (hcc : CorrectLabeller cc) (hord : NumbersInOrder cc) (hnx : 0 < nx) (p : GridRun ny nx)
    (hm : p.allowMerging = true) (wrap nn : Bool) (thr : ℚ) (cen : Frame (ny * nx) → Nat → ℚ × ℚ) (hcen : OfCells cen)
    (ht : p.track = gridCfg wrap nn ny nx thr cen) (chunks : List Nat) (pre band : List (Fin (ny * nx) → Bool)) (s b : Nat)
    (hch : ChunkLengths chunks pre.length) (hlen : pre.length = s + band.length + b)
    (hband : ∀ k, k < band.length → pre[s + k]? = band[k]?) (hbefore : ∀ t i, t + 1 = s → ¬ IsExtreme pre t i)
    (hafter : ∀ i, ¬ IsExtreme pre (s + band.length) i) (k : Nat) (i : Fin (ny * nx)) (hi : IsExtreme band k i) :
    let r := trackGrid cc p.track (chunksOf chunks (identifyObjectsGrid cc false p.regional nx pre))
    let r' := trackGrid cc p.track (chunksOf [band.length] (identifyObjectsGrid cc false p.regional nx band))
    ∀ g g' : Frame (ny * nx), r.idField[s + k]? = some g → r'.idField[k]? = some g' →
      (∀ t slot, ledgerOf cc r (t + s) slot (g i) = -1 ↔ ledgerOf cc r' t slot (g' i) = -1) ∧
      ∀ t slot, t < s ∨ s + band.length ≤ t → ledgerOf cc r t slot (g i) = -1 := by
  intro r r' g g' hg hg'
  have hk := extremeAt_lt hi
  have hne : band ≠ [] := by rintro rfl; simp at hk
  have hi' : IsExtreme (around noExtremes s b band) (s + k) i := by
    obtain ⟨d, hd, h⟩ := hi
    exact ⟨d, by rw [getElem?_around_mid _ s b band k hk]; exact hd, h⟩
  have hone : ChunkLengths [band.length] band.length := ⟨by simp, by simp; omega, by simp⟩
  have hch' : ChunkLengths chunks (s + band.length + b) := by rw [← hlen]; exact hch
  have key := C190_run_table_partial cc hcc hnx p wrap nn thr cen ht s b [band.length] chunks band hne hone hch'
  dsimp only at key
  have own := band_ownGroup (regional := p.regional) (nx := nx) pre band s b hlen hband hbefore hafter
  -- the group with the empty steps around it
  have hl1 : (identifyObjectsGrid cc false p.regional nx band).length = band.length := length_identify
  have e : (trackGrid cc p.track (chunksOf chunks (identifyObjectsGrid cc false p.regional nx (around noExtremes s b band)))).idField =
      around noEvents s b r'.idField := by
    rw [identifyObjectsGrid_around]
    refine (C190_objects_partial cc p.track s b (chunksOf [band.length] (identifyObjectsGrid cc false p.regional nx band)) _ (chunksOf_two ?_) (chunksOf_two ?_) ?_ ?_).1
    · rw [hl1]; exact hone
    · rw [length_around, hl1]; exact hch'
    · rw [flatten_chunksOf, ← List.length_pos_iff, hl1]; omega
    · rw [flatten_chunksOf, flatten_chunksOf]
  have hgm : (trackGrid cc p.track (chunksOf chunks (identifyObjectsGrid cc false p.regional nx (around noExtremes s b band)))).idField[s + k]? = some g' := by
    rw [e, getElem?_around_mid _ s b _ k (List.getElem?_eq_some_iff.1 hg').1]
    exact hg'
  have led := C204_ledger cc hcc hord hnx p hm wrap nn thr cen hcen ht chunks pre _ own (s + k) i hi' g g' hg hgm
  obtain ⟨-, -, q3, q4⟩ := key (g' i)
  refine ⟨fun t slot => ?_, fun t slot hts => (led t slot).2 (q4 t slot hts)⟩
  rw [led (t + s) slot, q3 t slot]

/-- **C198**, the ledger, grids with `allow_merging = True`: the middle part `B` of a record with more than `T_fill` steps without extremes before and after it.
Whatever comes before (as long as it has an object) and after, the ledger of an event of this part is -1 at the same steps of the part, in all slots, and -1 outside
the part. `f i` and `f' i` are the IDs of the event in the two records. Missing: as in `C198_middle_part_merging_partial`; that the entries are those of the
merging partners (`C26_siblings_fails`). -/
theorem C198_ledger_partial {ny nx : Nat} (cc : Labeller) (hcc : CorrectLabeller cc) (hord : NumbersInOrder cc) (hnx : 0 < nx) (p : GridRun ny nx)
    (hm : p.allowMerging = true) (wrap nn : Bool) (thr : ℚ) (cen : Frame (ny * nx) → Nat → ℚ × ℚ) (hcen : OfCells cen)
    (ht : p.track = gridCfg wrap nn ny nx thr cen) (hT : p.T % 2 = 0) (a : ℚ) (hc : p.criterion = .absolute a)
    (B X Y X' Y' : List (Fin (ny * nx) → Bool)) (g h g' h' : Nat) (hg : p.T < g) (hh : p.T < h) (hg' : p.T < g') (hh' : p.T < h') (chunks chunks' : List Nat)
    (hch : ChunkLengths chunks (X.length + g + B.length + h + Y.length)) (hch' : ChunkLengths chunks' (X'.length + g' + B.length + h' + Y'.length))
    (hX : ∃ r, preprocessGrid cc p X = .ok r) (hX' : ∃ r, preprocessGrid cc p X' = .ok r) :
    ∃ pre ids pre' ids', runGrid cc p chunks (withGap g X (withGap h B Y)) = .ok (pre, ids) ∧
      runGrid cc p chunks' (withGap g' X' (withGap h' B Y')) = .ok (pre', ids') ∧
      ∀ r r', r = trackGrid cc p.track (chunksOf chunks (identifyObjectsGrid cc false p.regional nx pre)) →
        r' = trackGrid cc p.track (chunksOf chunks' (identifyObjectsGrid cc false p.regional nx pre')) →
        r.idField = ids ∧ r'.idField = ids' ∧
        ∀ k i (f f' : Frame (ny * nx)), k < B.length → ids[X.length + g + k]? = some f → ids'[X'.length + g' + k]? = some f' → 0 < f i →
          (∀ t slot, ledgerOf cc r (t + (X.length + g)) slot (f i) = -1 ↔ ledgerOf cc r' (t + (X'.length + g')) slot (f' i) = -1) ∧
          ∀ t slot, t < X.length + g ∨ X.length + g + B.length ≤ t → ledgerOf cc r t slot (f i) = -1 := by
  obtain ⟨pre, ids, pre', ids', hr, hr', hpre, -⟩ := C198_middle_part_partial cc hcc hnx p hT a hc B X Y X' Y' g h g' h' hg hh hg' hh' chunks chunks' hX hX'
  refine ⟨pre, ids, pre', ids', hr, hr', ?_⟩
  have hidf : ∀ {chunks data pre ids}, runGrid cc p chunks data = .ok (pre, ids) →
      (trackGrid cc p.track (chunksOf chunks (identifyObjectsGrid cc false p.regional nx pre))).idField = ids := by
    intro chunks data pre ids hr
    unfold runGrid at hr
    split at hr
    · cases hr
    · cases hr
      unfold trackingGrid
      rw [if_pos hm]
  rintro r r' rfl rfl
  refine ⟨hidf hr, hidf hr', ?_⟩
  -- one record
  have one : ∀ (X Y : List (Fin (ny * nx) → Bool)) (g h : Nat), p.T < g → p.T < h → ∀ (chunks : List Nat) (pre : List (Fin (ny * nx) → Bool))
      (ids : List (Frame (ny * nx))), ChunkLengths chunks (X.length + g + B.length + h + Y.length) →
      runGrid cc p chunks (withGap g X (withGap h B Y)) = .ok (pre, ids) → ∀ band : List (Fin (ny * nx) → Bool), band.length = B.length →
      (∀ k, k < B.length → pre[X.length + g + k]? = band[k]?) → ∀ k i (f b : Frame (ny * nx)), k < B.length → ids[X.length + g + k]? = some f →
      (trackGrid cc p.track (chunksOf [band.length] (identifyObjectsGrid cc false p.regional nx band))).idField[k]? = some b → IsExtreme band k i →
      (∀ t slot, ledgerOf cc (trackGrid cc p.track (chunksOf chunks (identifyObjectsGrid cc false p.regional nx pre))) (t + (X.length + g)) slot (f i) = -1 ↔
        ledgerOf cc (trackGrid cc p.track (chunksOf [band.length] (identifyObjectsGrid cc false p.regional nx band))) t slot (b i) = -1) ∧
      ∀ t slot, t < X.length + g ∨ X.length + g + B.length ≤ t →
        ledgerOf cc (trackGrid cc p.track (chunksOf chunks (identifyObjectsGrid cc false p.regional nx pre))) t slot (f i) = -1 := by
    intro X Y g h hg hh chunks pre ids hch hr band hbl hband k i f b hk hf hb hi
    obtain ⟨l1, l2, hx⟩ := C65_grid_run cc hcc hnx p wrap nn thr cen ht chunks _ pre ids hr
    rw [length_withGap, length_withGap] at l1 l2
    have c1 := (C198_no_event_crosses cc hcc hnx p wrap nn thr cen ht hT g hg X (withGap h B Y) chunks pre ids hr).2
    have hassoc : withGap g X (withGap h B Y) = withGap h (withGap g X B) Y := by
      unfold withGap
      simp only [List.append_assoc]
    have c2 := (C198_no_event_crosses cc hcc hnx p wrap nn thr cen ht hT h hh (withGap g X B) Y chunks pre ids (hassoc ▸ hr)).2
    rw [length_withGap] at c2
    have empty : ∀ t i, (∀ f, ids[t]? = some f → ∀ i, f i = 0) → ¬ IsExtreme pre t i := by
      intro t i h0 he
      have hlt : t < ids.length := by rw [l2, ← l1]; exact extremeAt_lt he
      have := ((hx t _ (List.getElem?_eq_getElem hlt) i).1).mpr he
      rw [h0 _ (List.getElem?_eq_getElem hlt) i] at this
      exact absurd this (Nat.lt_irrefl 0)
    have key := band_ledger cc hcc hord hnx p hm wrap nn thr cen hcen ht chunks pre band (X.length + g) (h + Y.length)
      (by rw [l1]; convert hch using 1; omega) (by rw [l1, hbl]; omega) (by rw [hbl]; exact hband)
      (fun t i ht => empty t i (fun f hf => c1 t f (by omega) (by omega) hf))
      (fun i => empty _ i (fun f hf => c2 _ f (by omega) (by omega) hf)) k i hi f b (by rw [hidf hr]; exact hf) hb
    rw [hbl] at key ⊢
    exact key
  obtain ⟨hlen, -, hx⟩ := C65_grid_run cc hcc hnx p wrap nn thr cen ht chunks _ pre ids hr
  rw [length_withGap, length_withGap] at hlen
  have hbl : ((pre.drop (X.length + g)).take B.length).length = B.length := by
    rw [List.length_take, List.length_drop, hlen]
    omega
  have hb : ∀ k, k < B.length → pre[X.length + g + k]? = ((pre.drop (X.length + g)).take B.length)[k]? := by
    intro k hk
    rw [List.getElem?_take_of_lt hk, List.getElem?_drop]
  intro k i f f' hk hf hf' hfi
  have hi : IsExtreme ((pre.drop (X.length + g)).take B.length) k i := by
    have := ((hx _ f hf i).1).mp hfi
    unfold IsExtreme at this ⊢
    rw [← hb k hk]
    exact this
  generalize (pre.drop (X.length + g)).take B.length = band at hbl hb hi
  have hll : k < (trackGrid cc p.track (chunksOf [band.length] (identifyObjectsGrid cc false p.regional nx band))).idField.length := by
    have hu := (C63_grid_ids_unique cc hcc p.regional nx hnx band).1
    have h2 := (C21_tracking_keeps_support cc wrap nn ny nx thr cen (chunksOf [band.length] (identifyObjectsGrid cc false p.regional nx band))
      (by rw [flatten_chunksOf]; exact hu)).1
    rw [ht, h2, flatten_chunksOf, length_identify]
    omega
  have k1 := one X Y g h hg hh chunks pre ids hch hr band hbl hb k i f _ hk hf (List.getElem?_eq_getElem hll) hi
  have k2 := one X' Y' g' h' hg' hh' chunks' pre' ids' hch' hr' band hbl (fun k hk => by rw [← hpre k hk]; exact hb k hk) k i f' _ hk hf'
    (List.getElem?_eq_getElem hll) hi
  exact ⟨fun t slot => (k1.1 t slot).trans (k2.1 t slot).symm, k1.2⟩

-- the hypotheses are met (see `C198_middle_part_merging_partial` for the lengths): the merge of cells 0 and 2 in the part, after a single cell and after two steps
-- with other cells; `a 2` and `a' 2` are the IDs of the event of cell 2
example : (match runGrid quickFind (rowRun 3 true (1 / 3)) [2, 4] (withGap 1 [cellsFrom 1 1] (withGap 1 midMerge [])),
      runGrid quickFind (rowRun 3 true (1 / 3)) [1, 2, 3, 2] (withGap 1 [cellsFrom 0 0, fun i => i.val != 1] (withGap 1 midMerge [cellsFrom 0 2])) with
    | .ok (pre, [_, _, a, _, _, _]), .ok (pre', [_, _, _, a', _, _, _, _]) =>
      let r := trackGrid quickFind (rowRun 3 true (1 / 3)).track (chunksOf [2, 4] (identifyObjectsGrid quickFind false true 3 pre))
      let r' := trackGrid quickFind (rowRun 3 true (1 / 3)).track (chunksOf [1, 2, 3, 2] (identifyObjectsGrid quickFind false true 3 pre'))
      decide (0 < a 2 ∧ ledgerOf quickFind r 3 0 (a 2) = a 2 ∧ ledgerOf quickFind r 2 0 (a 2) = -1 ∧
        ledgerOf quickFind r' 4 0 (a' 2) = a' 2 ∧ ledgerOf quickFind r' 3 0 (a' 2) = -1)
    | _, _ => false) = true := by decide +kernel

end MarEx.Props
