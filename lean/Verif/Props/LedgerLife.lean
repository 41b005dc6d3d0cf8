import Verif.Props.Ledger
import Verif.Props.SeparateMerging
/-! C215: the merge ledger has entries for an event only while it lives, or at the step after its last. -/
namespace MarEx.Props
open MarEx MarEx.Spec

variable {n : Nat}

/-- **C215**, tracked objects: if the ledger of event `e` is filled at step `t`, the event has cells at step `t - 1`, one of which belongs to some event at step `t`
too; so `t` lies after the first step of the event and at most one step after its last. -/
theorem C215_objects (cc : Labeller) (hcc : CorrectLabeller cc) (wrap nn : Bool) (ny nx : Nat) (thr : ℚ) (cen : Frame n → Nat → ℚ × ℚ)
    (chunks : List (List (Frame n))) (hu : TimeUnique chunks.flatten) (t slot e : Nat) (he : 0 < e) :
    let r := trackGrid cc (gridCfg wrap nn ny nx thr cen) chunks
    ledgerOf cc r t slot e ≠ -1 →
      (∃ (u : Nat) (g h : Frame n) (k : Fin n), t = u + 1 ∧ r.idField[u]? = some g ∧ r.idField[t]? = some h ∧ g k = e ∧ 0 < h k) ∧
      timeStartIdx (presenceOf r.objects.field r.idField e) < t ∧ t ≤ timeEndIdx (presenceOf r.objects.field r.idField e) + 1 := by
  intro r hled
  have hex := tableExact_calcProps (gridCfg wrap nn ny nx thr cen) _ hu
  have hid : ∀ (u : Nat) (f : Frame n), r.objects.field[u]? = some f → r.idField[u]? = some fun i =>
      if 0 < f i then eventOf cc r.objects.field (r.objects.links.map fun o => (o.a, o.b)) (f i) else 0 := by
    intro u f hf
    change (renameField cc r.objects.field (r.objects.links.map fun o => (o.a, o.b)))[u]? = _
    unfold renameField
    rw [List.getElem?_map, hf]
    rfl
  obtain ⟨l0, hl, hsame, -⟩ := C22_events_are_linked_groups cc hcc (gridCfg wrap nn ny nx thr cen).w (gridCfg wrap nn ny nx thr cen).thr r.objects.props r.objects.field
  have hcell : ∃ (u : Nat) (g h : Frame n) (k : Fin n), t = u + 1 ∧ r.idField[u]? = some g ∧ r.idField[t]? = some h ∧ g k = e ∧ 0 < h k := by
    unfold ledgerOf at hled
    obtain ⟨q, hq, hqt, p, hp, hpe⟩ := (C26_minus_one_iff_no_merge_partial _ _ t slot e he).1 hled
    obtain ⟨u, f, h, g, child, e1, e2, e3, e4, _, _, _, _, _, e10, e11, _⟩ := C27_merge_records wrap nn ny nx thr cen chunks _ hu hex q hq
    obtain ⟨hp0, k, hk, hkc⟩ := e11 p hp
    have hh : 0 < h k := (e4 k).1 (by omega)
    refine ⟨u, _, _, k, by omega, hid u f e2, by rw [← hqt, e1]; exact hid (u + 1) h e3, ?_, ?_⟩
    · rw [if_pos (by omega), hk, hpe]
    · exact ((hsame (u + 1) h _ e3 (hid (u + 1) h e3)) k).2 hh
  refine ⟨hcell, ?_⟩
  obtain ⟨u, g, h, k, rfl, hg, -, hk, -⟩ := hcell
  have hlen : r.idField.length = r.objects.field.length := by
    change (renameField cc r.objects.field _).length = _
    simp [renameField]
  obtain ⟨-, -, h3⟩ := C23_presence_and_times r.objects.field r.idField hlen hsame e he
  have := (h3 ⟨g, List.mem_of_getElem? hg, k, hk⟩).2.2 u g hg ⟨k, hk⟩
  omega

/-- **C215**: a run on a structured grid with `allow_merging = True`, whatever the data, the options and the chunks. If the ledger says that event `e` merges at step
`t`, the event has a cell at step `t - 1` that is extreme at step `t` too; `t` is a step of the record, after the first step of the event and at most one step after
its last. In particular nothing merges at the first step of the record. -/
theorem C215_run {ny nx : Nat} (cc : Labeller) (hcc : CorrectLabeller cc) (hnx : 0 < nx) (p : GridRun ny nx) (hm : p.allowMerging = true) (wrap nn : Bool) (thr : ℚ)
    (cen : Frame (ny * nx) → Nat → ℚ × ℚ) (ht : p.track = gridCfg wrap nn ny nx thr cen) (chunks : List Nat) (data pre : List (Fin (ny * nx) → Bool))
    (ids : List (Frame (ny * nx))) (h : runGrid cc p chunks data = .ok (pre, ids)) (t slot e : Nat) (he : 0 < e) :
    let r := trackGrid cc p.track (chunksOf chunks (identifyObjectsGrid cc false p.regional nx pre))
    ledgerOf cc r t slot e ≠ -1 →
      (∃ (u : Nat) (g : Frame (ny * nx)) (k : Fin (ny * nx)), t = u + 1 ∧ ids[u]? = some g ∧ g k = e ∧ IsExtreme pre t k) ∧ t < data.length ∧
      timeStartIdx (presenceOf r.objects.field ids e) < t ∧ t ≤ timeEndIdx (presenceOf r.objects.field ids e) + 1 := by
  intro r hled
  have hids : r.idField = ids := by
    unfold runGrid at h
    split at h
    · cases h
    · cases h
      unfold trackingGrid
      rw [if_pos hm]
  obtain ⟨-, l2, hx⟩ := C65_grid_run cc hcc hnx p wrap nn thr cen ht chunks _ pre ids h
  have hu : TimeUnique (chunksOf chunks (identifyObjectsGrid cc false p.regional nx pre)).flatten := by
    rw [flatten_chunksOf]
    exact (C63_grid_ids_unique cc hcc p.regional nx hnx pre).1
  have er : r = trackGrid cc (gridCfg wrap nn ny nx thr cen) (chunksOf chunks (identifyObjectsGrid cc false p.regional nx pre)) := by rw [← ht]
  obtain ⟨⟨u, g, f, k, e1, e2, e3, e4, e5⟩, h2, h3⟩ := C215_objects cc hcc wrap nn ny nx thr cen _ hu t slot e he (by rw [← er]; exact hled)
  rw [← er, hids] at e2 e3 h2 h3
  refine ⟨⟨u, g, k, e1, e2, e4, ((hx t f e3 k).1).1 e5⟩, ?_, h2, h3⟩
  rw [← l2]
  exact (List.getElem?_eq_some_iff.1 e3).1

-- the ledger of a run in which cells 0 and 2 merge (`midMerge` at steps 2 to 4): the event of cell 2 has the cell 2 at steps 2 and 3 and is in the ledger at step 3
example : (match runGrid quickFind (rowRun 3 true (1 / 3)) [2, 4] (withGap 1 [cellsFrom 1 1] (withGap 1 midMerge [])) with
    | .ok (pre, [_, _, a, b, _, _]) =>
      let r := trackGrid quickFind (rowRun 3 true (1 / 3)).track (chunksOf [2, 4] (identifyObjectsGrid quickFind false true 3 pre))
      decide (0 < a 2 ∧ b 2 = a 2 ∧ ledgerOf quickFind r 3 0 (a 2) ≠ -1)
    | _ => false) = true := by decide +kernel

end MarEx.Props
