import Verif.Props.FarAwayMerging
import Verif.Props.Ledger
/-! The merges and the ledger of a group of events when the extremes far from it are changed (C199). -/
namespace MarEx.Props
open MarEx MarEx.Spec

variable {n : Nat}

theorem forall₂_trans {α β γ : Type} {R : α → β → Prop} {S : β → γ → Prop} {T : α → γ → Prop} (h : ∀ a b c, R a b → S b c → T a c) :
    ∀ {l : List α} {m : List β} {k : List γ}, List.Forall₂ R l m → List.Forall₂ S m k → List.Forall₂ T l k
  | _, _, _, .nil, .nil => .nil
  | _, _, _, .cons h1 t1, .cons h2 t2 => .cons (h _ _ _ h1 h2) (forall₂_trans h t1 t2)

theorem sameMerge_trans {L : Nat} {F F' F'' : List (Frame n)} {q q' q'' : MergeRec} (h : SameMerge L F F' q q') (k : SameMerge L F' F'' q' q'') :
    SameMerge L F F'' q q'' := by
  obtain ⟨h1, h2, h3, h4⟩ := h
  obtain ⟨k1, k2, k3, k4⟩ := k
  have ht : ∀ a b c, SameCellsUntil L F F' a b → SameCellsUntil L F' F'' b c → SameCellsUntil L F F'' a c := fun a b c h k t ht i => (h t ht i).trans (k t ht i)
  exact ⟨h1.trans k1, h2.trans k2, forall₂_trans ht h3 k3, forall₂_trans ht h4 k4⟩

/-- **C199**, the merges, structured grids with `allow_merging = True` and `area_filter_absolute = a`: a group of events that never meets the rest, and extremes
changed at cells that lie more than `6 R_fill + ⌈a⌉ + 1` rows or columns from every cell of the group. The merges of the group (those with a parent on its cells)
are the same in the second run: in the same order, at the same steps, with the same overlap areas and with parents and children on the same cells. Missing: as in
`C199_far_away_merging_partial`. -/
theorem C199_merges_partial {ny nx : Nat} (cc : Labeller) (hcc : CorrectLabeller cc) (hord : NumbersInOrder cc) (hnx : 0 < nx) (p : GridRun ny nx)
    (wrap nn : Bool) (thr : ℚ) (cen : Frame (ny * nx) → Nat → ℚ × ℚ) (hcen : OfCells cen) (ht : p.track = gridCfg wrap nn ny nx thr cen)
    (hT : p.T % 2 = 0) (a : ℚ) (hc : p.criterion = .absolute a) (data data' : List (Fin (ny * nx) → Bool)) (hlen : data.length = data'.length)
    (chunks : List Nat) (pre pre' : List (Fin (ny * nx) → Bool)) (ids ids' : List (Frame (ny * nx)))
    (h : runGrid cc p chunks data = .ok (pre, ids)) (h' : runGrid cc p chunks data' = .ok (pre', ids'))
    (group : List (Fin (ny * nx) → Bool)) (hgr : OwnGroup p.regional nx pre group)
    (hsame : ∀ u j, IsExtreme group u j → SameWithin p.regional ny nx (6 * p.R + ⌈a⌉₊ + 1) data data' j)
    (s s' : Nat) (k k' : Fin (ny * nx)) (hk : IsExtreme pre s k) (hk' : IsExtreme pre' s' k')
    (hs : ∀ u j, IsExtreme group u j → s + 1 < u ∧ s' + 1 < u) :
    let r := (trackGrid cc p.track (chunksOf chunks (identifyObjectsGrid cc false p.regional nx pre))).objects
    let r' := (trackGrid cc p.track (chunksOf chunks (identifyObjectsGrid cc false p.regional nx pre'))).objects
    ∃ own own' : MergeRec → Bool,
      (∀ q ∈ r.merges, own q = true ↔ ∃ k ∈ q.parents, ∃ (t : Nat) (f : Frame (ny * nx)) (i : Fin (ny * nx)), r.field[t]? = some f ∧ f i = k ∧ IsExtreme group t i) ∧
      (∀ q ∈ r'.merges, own' q = true ↔ ∃ k ∈ q.parents, ∃ (t : Nat) (f : Frame (ny * nx)) (i : Fin (ny * nx)), r'.field[t]? = some f ∧ f i = k ∧ IsExtreme group t i) ∧
      List.Forall₂ (SameMerge pre.length r.field r'.field) (r.merges.filter own) (r'.merges.filter own') := by
  intro r r'
  have hgr' := far_ownGroup cc hcc hnx p wrap nn thr cen ht hT a hc data data' hlen chunks pre pre' ids ids' h h' group hgr hsame s s' k k' hk hk' hs
  obtain ⟨own, o1, -, o3⟩ := C204_merges cc hcc hord hnx p wrap nn thr cen hcen ht chunks pre group hgr
  obtain ⟨own', q1, -, q3⟩ := C204_merges cc hcc hord hnx p wrap nn thr cen hcen ht chunks pre' group hgr'
  rw [← hgr'.length, hgr.length] at q3
  set r'' := (trackGrid cc p.track (chunksOf chunks (identifyObjectsGrid cc false p.regional nx group))).objects
  have q4 : List.Forall₂ (SameMerge pre.length r''.field r'.field) r''.merges (r'.merges.filter own') := (q3.imp fun _ _ => sameMerge_symm).flip
  refine ⟨own, own', o1, q1, ?_⟩
  exact forall₂_trans (R := SameMerge pre.length r.field r''.field) (S := SameMerge pre.length r''.field r'.field) (fun _ _ _ h k => sameMerge_trans h k) o3 q4

/-- **C199**, the ledger: in the same situation, an event of the group has the same ledger in both runs: at every step and in every slot, -1 in one run iff -1 in
the other. `f i` and `f' i` are its IDs. Missing: as in `C199_far_away_merging_partial`; that the entries are those of the merging partners
(`C26_siblings_fails`). -/
theorem C199_ledger_partial {ny nx : Nat} (cc : Labeller) (hcc : CorrectLabeller cc) (hord : NumbersInOrder cc) (hnx : 0 < nx) (p : GridRun ny nx)
    (hm : p.allowMerging = true) (wrap nn : Bool) (thr : ℚ) (cen : Frame (ny * nx) → Nat → ℚ × ℚ) (hcen : OfCells cen)
    (ht : p.track = gridCfg wrap nn ny nx thr cen)
    (hT : p.T % 2 = 0) (a : ℚ) (hc : p.criterion = .absolute a) (data data' : List (Fin (ny * nx) → Bool)) (hlen : data.length = data'.length)
    (chunks : List Nat) (pre pre' : List (Fin (ny * nx) → Bool)) (ids ids' : List (Frame (ny * nx)))
    (h : runGrid cc p chunks data = .ok (pre, ids)) (h' : runGrid cc p chunks data' = .ok (pre', ids'))
    (group : List (Fin (ny * nx) → Bool)) (hgr : OwnGroup p.regional nx pre group)
    (hsame : ∀ u j, IsExtreme group u j → SameWithin p.regional ny nx (6 * p.R + ⌈a⌉₊ + 1) data data' j)
    (s s' : Nat) (k k' : Fin (ny * nx)) (hk : IsExtreme pre s k) (hk' : IsExtreme pre' s' k')
    (hs : ∀ u j, IsExtreme group u j → s + 1 < u ∧ s' + 1 < u) (t0 : Nat) (i : Fin (ny * nx)) (hi : IsExtreme group t0 i) (f f' : Frame (ny * nx))
    (hf : ids[t0]? = some f) (hf' : ids'[t0]? = some f') :
    let r := trackGrid cc p.track (chunksOf chunks (identifyObjectsGrid cc false p.regional nx pre))
    let r' := trackGrid cc p.track (chunksOf chunks (identifyObjectsGrid cc false p.regional nx pre'))
    ∀ t slot, ledgerOf cc r t slot (f i) = -1 ↔ ledgerOf cc r' t slot (f' i) = -1 := by
  intro r r' t slot
  have hgr' := far_ownGroup cc hcc hnx p wrap nn thr cen ht hT a hc data data' hlen chunks pre pre' ids ids' h h' group hgr hsame s s' k k' hk hk' hs
  have hidf : ∀ {data pre ids}, runGrid cc p chunks data = .ok (pre, ids) →
      (trackGrid cc p.track (chunksOf chunks (identifyObjectsGrid cc false p.regional nx pre))).idField = ids := by
    intro data pre ids hr
    unfold runGrid at hr
    split at hr
    · cases hr
    · cases hr
      unfold trackingGrid
      rw [if_pos hm]
  have hl : t0 < (trackGrid cc p.track (chunksOf chunks (identifyObjectsGrid cc false p.regional nx group))).idField.length := by
    have hu := (C63_grid_ids_unique cc hcc p.regional nx hnx group).1
    have h2 := (C21_tracking_keeps_support cc wrap nn ny nx thr cen (chunksOf chunks (identifyObjectsGrid cc false p.regional nx group))
      (by rw [flatten_chunksOf]; exact hu)).1
    rw [ht, h2, flatten_chunksOf, length_identify]
    exact extremeAt_lt hi
  have k1 := C204_ledger cc hcc hord hnx p hm wrap nn thr cen hcen ht chunks pre group hgr t0 i hi f _ (by rw [hidf h]; exact hf) (List.getElem?_eq_getElem hl) t slot
  have k2 := C204_ledger cc hcc hord hnx p hm wrap nn thr cen hcen ht chunks pre' group hgr' t0 i hi f' _ (by rw [hidf h']; exact hf') (List.getElem?_eq_getElem hl)
    t slot
  exact k1.trans k2.symm

-- the hypotheses are met by these two records (see `C199_far_away_merging_partial`): the merge of cells 0 and 2 at step 3, alone and beside another merge
example : (match runGrid quickFind (rowRun 9 true (1 / 3)) [2, 3] nearMerge, runGrid quickFind (rowRun 9 true (1 / 3)) [2, 3] nearMergeFar with
    | .ok (pre, [_, _, c, _, _]), .ok (pre', [_, _, c', _, _]) =>
      let r := trackGrid quickFind (rowRun 9 true (1 / 3)).track (chunksOf [2, 3] (identifyObjectsGrid quickFind false true 9 pre))
      let r' := trackGrid quickFind (rowRun 9 true (1 / 3)).track (chunksOf [2, 3] (identifyObjectsGrid quickFind false true 9 pre'))
      decide (0 < c 2 ∧ ledgerOf quickFind r 3 0 (c 2) = c 2 ∧ ledgerOf quickFind r 4 0 (c 2) = -1 ∧ ledgerOf quickFind r' 3 0 (c' 2) = c' 2 ∧
        ledgerOf quickFind r' 4 0 (c' 2) = -1 ∧ r.objects.merges.length = 1 ∧ r'.objects.merges.length = 2)
    | _, _ => false) = true := by decide +kernel

end MarEx.Props
