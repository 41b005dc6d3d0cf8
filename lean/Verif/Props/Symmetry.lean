import Verif.Props.Pipeline
/-! Events and the orientation of the data: C164, C165. -/
namespace MarEx.Spec

/-- The cell `s` columns further east on a globe of `nx` columns. -/
def turn {ny nx : Nat} (hnx : 0 < nx) (s : Nat) (i : Fin (ny * nx)) : Fin (ny * nx) :=
  ⟨i.val / nx * nx + (i.val % nx + s) % nx, by
    have h1 : i.val / nx < ny := Nat.div_lt_of_lt_mul (Nat.lt_of_lt_of_eq i.isLt (Nat.mul_comm ny nx))
    have h2 : (i.val % nx + s) % nx < nx := Nat.mod_lt _ hnx
    calc i.val / nx * nx + (i.val % nx + s) % nx < i.val / nx * nx + nx := by omega
      _ = (i.val / nx + 1) * nx := by ring
      _ ≤ ny * nx := Nat.mul_le_mul_right _ h1⟩

/-- The two records show the same extremes on maps that are cut at different longitudes, `s` columns apart. -/
def Turned {ny nx : Nat} (hnx : 0 < nx) (s : Nat) (data data' : List (Fin (ny * nx) → Bool)) : Prop :=
  data'.length = data.length ∧ ∀ t i, IsExtreme data' t (turn hnx s i) ↔ IsExtreme data t i

end MarEx.Spec

namespace MarEx.Props
open MarEx MarEx.Spec

theorem linked_map {α β : Type} {r : α → α → Prop} {q : β → β → Prop} (f : α → β) (h : ∀ a b, r a b → q (f a) (f b)) {a b : α} (hl : Linked r a b) :
    Linked q (f a) (f b) := by
  induction hl with
  | refl => exact .refl _
  | fwd _ hr ih => exact .fwd ih (h _ _ hr)
  | bwd _ hr ih => exact .bwd ih (h _ _ hr)

variable {ny nx : Nat}

theorem turn_div (hnx : 0 < nx) (s : Nat) (i : Fin (ny * nx)) : (turn hnx s i).val / nx = i.val / nx := by
  show (i.val / nx * nx + (i.val % nx + s) % nx) / nx = i.val / nx
  rw [Nat.mul_comm, Nat.mul_add_div hnx, Nat.div_eq_of_lt (Nat.mod_lt _ hnx), Nat.add_zero]

theorem turn_mod (hnx : 0 < nx) (s : Nat) (i : Fin (ny * nx)) : (turn hnx s i).val % nx = (i.val % nx + s) % nx := by
  show (i.val / nx * nx + (i.val % nx + s) % nx) % nx = _
  rw [Nat.mul_comm, Nat.mul_add_mod, Nat.mod_mod]

theorem turn_turn (hnx : 0 < nx) (s s' : Nat) (h : (s + s') % nx = 0) (i : Fin (ny * nx)) : turn hnx s' (turn hnx s i) = i := by
  apply Fin.ext
  show (turn hnx s i).val / nx * nx + ((turn hnx s i).val % nx + s') % nx = i.val
  rw [turn_div, turn_mod, Nat.mod_add_mod, Nat.add_assoc, Nat.add_mod, h, Nat.add_zero, Nat.mod_mod, Nat.mod_mod, Nat.mul_comm]
  exact Nat.div_add_mod i.val nx

/-- The turn back. -/
def backBy (nx s : Nat) : Nat := nx - s % nx

theorem backBy_spec (hnx : 0 < nx) (s : Nat) : (s + backBy nx s) % nx = 0 ∧ (backBy nx s + s) % nx = 0 := by
  have hlt := Nat.mod_lt s hnx
  have h : (s + backBy nx s) % nx = 0 := by
    unfold backBy
    rw [show s + (nx - s % nx) = nx * (s / nx) + nx by have := Nat.div_add_mod s nx; omega]
    simp
  exact ⟨h, by rw [Nat.add_comm]; exact h⟩

theorem touch_turn (hnx : 0 < nx) (s : Nat) {i j : Fin (ny * nx)} (h : Touch false nx i j) : Touch false nx (turn hnx s i) (turn hnx s j) := by
  obtain ⟨h1, d, hd, h2⟩ := h
  simp only [Bool.false_eq_true, if_false] at h2
  refine ⟨?_, d, hd, ?_⟩
  · have e1 := turn_div hnx s i
    have e2 := turn_div hnx s j
    have e1' : ((turn hnx s i).val : Int) / (nx : Int) = (i.val : Int) / nx := by exact_mod_cast e1
    have e2' : ((turn hnx s j).val : Int) / (nx : Int) = (j.val : Int) / nx := by exact_mod_cast e2
    rw [e1', e2']
    exact h1
  · simp only [Bool.false_eq_true, if_false]
    rw [turn_mod, turn_mod]
    push_cast at h2 ⊢
    rw [h2, Int.emod_add_emod, Int.emod_add_emod, add_right_comm]

theorem turned_back (hnx : 0 < nx) {s : Nat} {data data' : List (Fin (ny * nx) → Bool)} (h : Turned hnx s data data') :
    Turned hnx (backBy nx s) data' data := by
  refine ⟨h.1.symm, fun t i => ?_⟩
  rw [← h.2 t (turn hnx (backBy nx s) i), turn_turn hnx _ _ (backBy_spec hnx s).2]

theorem joined_turn (hnx : 0 < nx) {s : Nat} {data data' : List (Fin (ny * nx) → Bool)} (h : Turned hnx s data data') {a b : Nat × Fin (ny * nx)}
    (hj : JoinedInTime false nx data a b) : JoinedInTime false nx data' (a.1, turn hnx s a.2) (b.1, turn hnx s b.2) :=
  ⟨hj.1, touch_turn hnx s hj.2.1, (h.2 _ _).mpr hj.2.2.1, (h.2 _ _).mpr hj.2.2.2⟩

theorem joinedStep_turn (hnx : 0 < nx) {s : Nat} {data data' : List (Fin (ny * nx) → Bool)} (h : Turned hnx s data data') {t : Nat} {a b : Fin (ny * nx)}
    (hj : JoinedInStep false nx data t a b) : JoinedInStep false nx data' t (turn hnx s a) (turn hnx s b) :=
  ⟨touch_turn hnx s hj.1, (h.2 _ _).mpr hj.2.1, (h.2 _ _).mpr hj.2.2⟩

theorem linked_turn_iff (hnx : 0 < nx) {s : Nat} {data data' : List (Fin (ny * nx) → Bool)} (h : Turned hnx s data data') (t u : Nat) (i j : Fin (ny * nx)) :
    Linked (JoinedInTime false nx data') (t, turn hnx s i) (u, turn hnx s j) ↔ Linked (JoinedInTime false nx data) (t, i) (u, j) := by
  constructor
  · intro hl
    have := linked_map (fun a : Nat × Fin (ny * nx) => (a.1, turn hnx (backBy nx s) a.2)) (fun a b => joined_turn hnx (turned_back hnx h)) hl
    rwa [turn_turn hnx _ _ (backBy_spec hnx s).1, turn_turn hnx _ _ (backBy_spec hnx s).1] at this
  · exact linked_map (fun a : Nat × Fin (ny * nx) => (a.1, turn hnx s a.2)) (fun a b => joined_turn hnx h)

theorem linkedStep_turn_iff (hnx : 0 < nx) {s : Nat} {data data' : List (Fin (ny * nx) → Bool)} (h : Turned hnx s data data') (t : Nat) (i j : Fin (ny * nx)) :
    Linked (JoinedInStep false nx data' t) (turn hnx s i) (turn hnx s j) ↔ Linked (JoinedInStep false nx data t) i j := by
  constructor
  · intro hl
    have := linked_map (turn hnx (backBy nx s)) (fun a b => joinedStep_turn hnx (turned_back hnx h)) hl
    rwa [turn_turn hnx _ _ (backBy_spec hnx s).1, turn_turn hnx _ _ (backBy_spec hnx s).1] at this
  · exact linked_map (turn hnx s) (fun a b => joinedStep_turn hnx h)

/-- **C164**, the part that holds (objects): two cells belong to the same object iff they do on a map of the globe that is cut elsewhere. -/
theorem C164_objects_partial (cc : Labeller) (hcc : CorrectLabeller cc) (hnx : 0 < nx) (s : Nat) (data data' : List (Fin (ny * nx) → Bool))
    (h : Turned hnx s data data') (t u : Nat) (g g' k k' : Frame (ny * nx))
    (hg : (identifyObjectsGrid cc false false nx data)[t]? = some g) (hg' : (identifyObjectsGrid cc false false nx data)[u]? = some g')
    (hk : (identifyObjectsGrid cc false false nx data')[t]? = some k) (hk' : (identifyObjectsGrid cc false false nx data')[u]? = some k')
    (i j : Fin (ny * nx)) : (0 < g i ∧ g i = g' j) ↔ (0 < k (turn hnx s i) ∧ k (turn hnx s i) = k' (turn hnx s j)) := by
  rw [(C63_grid_objects_are_components cc hcc false nx hnx data t u g g' hg hg' i j).2,
    (C63_grid_objects_are_components cc hcc false nx hnx data' t u k k' hk hk' _ _).2, h.2, h.2]
  constructor
  · rintro ⟨rfl, h1, h2, h3⟩; exact ⟨rfl, h1, h2, (linkedStep_turn_iff hnx h t i j).mpr h3⟩
  · rintro ⟨rfl, h1, h2, h3⟩; exact ⟨rfl, h1, h2, (linkedStep_turn_iff hnx h t i j).mp h3⟩

/-- **C164**, the part that holds (events): with `allow_merging=False`, two cells of the preprocessed field belong to the same event iff they do on a
map of the globe that is cut elsewhere. Missing: the preprocessing, which depends on the cut (see `C05_rotation_invariance_fails` and
`C164_area_filter_fails`), and events with merging, which depend on it too (`C164_merging_tie_fails`). -/
theorem C164_events_partial (cc : Labeller) (hcc : CorrectLabeller cc) (hnx : 0 < nx) (p : GridRun ny nx) (hm : p.allowMerging = false)
    (hr : p.regional = false) (chunks : List Nat) (s : Nat) (pre pre' : List (Fin (ny * nx) → Bool)) (h : Turned hnx s pre pre')
    (t u : Nat) (g g' k k' : Frame (ny * nx)) (hg : (trackingGrid cc p chunks pre)[t]? = some g) (hg' : (trackingGrid cc p chunks pre)[u]? = some g')
    (hk : (trackingGrid cc p chunks pre')[t]? = some k) (hk' : (trackingGrid cc p chunks pre')[u]? = some k') (i j : Fin (ny * nx)) :
    (0 < g i ∧ g i = g' j) ↔ (0 < k (turn hnx s i) ∧ k (turn hnx s i) = k' (turn hnx s j)) := by
  rw [((C64_no_merging_events cc hcc hnx p hm chunks pre).1 t u g g' hg hg' i j).2,
    ((C64_no_merging_events cc hcc hnx p hm chunks pre').1 t u k k' hk hk' _ _).2, h.2, h.2, hr, linked_turn_iff hnx h]

/-- Two cells at opposite longitudes on a globe of 2 rows and 4 columns, at both of two steps. -/
def twoSpots : List (Fin (2 * 4) → Bool) := [fun i => decide (i.val = 0 ∨ i.val = 2), fun i => decide (i.val = 0 ∨ i.val = 2)]

/-- Turned by half the globe the record is the same. -/
theorem twoSpots_turned : Turned (ny := 2) (nx := 4) (by decide) 2 twoSpots twoSpots := by
  refine ⟨rfl, fun t i => ?_⟩
  match t with
  | 0 | 1 =>
    constructor <;> (rintro ⟨d, hd, he⟩; cases hd; exact ⟨_, rfl, by revert he; revert i; decide⟩)
  | t + 2 => constructor <;> (rintro ⟨d, hd, _⟩; cases hd)

def spotRun : GridRun 2 4 :=
  { regional := false, mask := fun _ => true, R := 0, T := 0, criterion := .absolute 1, allowMerging := false
    track := gridCfg true false 2 4 (1 / 2) (fun _ _ => (0, 0)) }

/-- **C164 fails** for whole runs even without hole filling: on a record that looks the same from both sides of the globe, the run keeps the objects of one
side (cell 2 at both steps) and drops one of the other (cell 0 at the first step): the area filter loses the first object, and which one is first
depends on where the map is cut. -/
theorem C164_area_filter_fails : Turned (ny := 2) (nx := 4) (by decide) 2 twoSpots twoSpots ∧
    (match runGrid quickFind spotRun [2] twoSpots with
      | .ok ([e0, e1], [g0, g1]) => !e0 0 && e0 2 && e1 0 && e1 2 && decide (g0 0 = 0 ∧ 0 < g0 2 ∧ g0 2 = g1 2 ∧ 0 < g1 0)
      | _ => false) = true :=
  ⟨twoSpots_turned, by decide +kernel⟩

-- the hypotheses of the two theorems above are met: the same record, tracked without the area filter, has two events on both maps
example : (trackingGrid quickFind spotRun [2] twoSpots).map (fun g => (List.finRange 8).map g) =
    [[1, 0, 2, 0, 0, 0, 0, 0], [1, 0, 2, 0, 0, 0, 0, 0]] := by decide +kernel

/-- Two single cells with one cell between them; at the second step all three are one object. The globe has 6 columns. -/
def meeting : List (Fin (1 * 6) → Bool) := [fun i => decide (i.val = 0 ∨ i.val = 2), fun i => decide (i.val ≤ 2)]

/-- The same record on a map cut one column further east. -/
def meetingTurned : List (Fin (1 * 6) → Bool) :=
  [fun i => decide (i.val = 5 ∨ i.val = 1), fun i => decide (i.val = 5 ∨ i.val ≤ 1)]

theorem meeting_turned : Turned (ny := 1) (nx := 6) (by decide) 5 meeting meetingTurned := by
  refine ⟨rfl, fun t i => ?_⟩
  match t with
  | 0 | 1 =>
    constructor <;> (rintro ⟨d, hd, he⟩; cases hd; exact ⟨_, rfl, by revert he; revert i; decide⟩)
  | t + 2 => constructor <;> (rintro ⟨d, hd, _⟩; cases hd)

/-- A global run with merging and nearest-neighbour partition. -/
def meetingRun : GridRun 1 6 :=
  { regional := false, mask := fun _ => true, R := 0, T := 0, criterion := .absolute 0, allowMerging := true
    track := gridCfg true true 1 6 (1 / 2) (fun _ _ => (0, 0)) }

/-- **C164 fails** for events with merging: the middle cell of the merged object is equally near to both parents and is given to the one with the smaller ID, and which one that is
depends on where the map is cut. On the first map the middle cell belongs to the event of cell 0, on the second to that of cell 2. -/
theorem C164_merging_tie_fails : Turned (ny := 1) (nx := 6) (by decide) 5 meeting meetingTurned ∧
    (match trackingGrid quickFind meetingRun [2] meeting, trackingGrid quickFind meetingRun [2] meetingTurned with
      | [_, g], [_, k] =>
        let e := fun i : Fin (1 * 6) => turn (ny := 1) (nx := 6) (by decide) 5 i
        decide (0 < g 1 ∧ g 1 = g 0 ∧ g 1 ≠ g 2 ∧ 0 < k (e 1) ∧ k (e 1) = k (e 2) ∧ k (e 1) ≠ k (e 0))
      | _, _ => false) = true :=
  ⟨meeting_turned, by decide +kernel⟩

/-! ### Time reversal -/

variable {n : Nat}

theorem extreme_reverse (data : List (Fin n → Bool)) (t : Nat) (ht : t < data.length) (i : Fin n) :
    IsExtreme data.reverse (data.length - 1 - t) i ↔ IsExtreme data t i := by
  unfold IsExtreme
  rw [List.getElem?_reverse (by omega), show data.length - 1 - (data.length - 1 - t) = t by omega]

/-- A step counted from the end. -/
def fromEnd (data : List (Fin n → Bool)) (a : Nat × Fin n) : Nat × Fin n := (data.length - 1 - a.1, a.2)

theorem extreme_lt {data : List (Fin n → Bool)} {t : Nat} {i : Fin n} (h : IsExtreme data t i) : t < data.length := by
  obtain ⟨d, hd, _⟩ := h
  exact (List.getElem?_eq_some_iff.mp hd).1

theorem joined_reverse (regional : Bool) (nx : Nat) (data : List (Fin n → Bool)) {a b : Nat × Fin n} (h : JoinedInTime regional nx data a b) :
    JoinedInTime regional nx data.reverse (fromEnd data a) (fromEnd data b) := by
  obtain ⟨h1, h2, h3, h4⟩ := h
  have l1 := extreme_lt h3
  have l2 := extreme_lt h4
  refine ⟨?_, h2, (extreme_reverse data a.1 l1 a.2).mpr h3, (extreme_reverse data b.1 l2 b.2).mpr h4⟩
  show (((data.length - 1 - a.1 : Nat) : Int) - ((data.length - 1 - b.1 : Nat) : Int)).natAbs ≤ 1
  omega

theorem fromEnd_fromEnd (data : List (Fin n → Bool)) (a : Nat × Fin n) (h : a.1 < data.length) : fromEnd data.reverse (fromEnd data a) = a := by
  unfold fromEnd
  rw [List.length_reverse]
  ext1
  · show data.length - 1 - (data.length - 1 - a.1) = a.1
    omega
  · rfl

theorem linked_reverse_iff (regional : Bool) (nx : Nat) (data : List (Fin n → Bool)) (a b : Nat × Fin n) (ha : a.1 < data.length) (hb : b.1 < data.length) :
    Linked (JoinedInTime regional nx data.reverse) (fromEnd data a) (fromEnd data b) ↔ Linked (JoinedInTime regional nx data) a b := by
  constructor
  · intro hl
    have := linked_map (fromEnd data.reverse) (fun a b => joined_reverse regional nx data.reverse) hl
    rwa [fromEnd_fromEnd data a ha, fromEnd_fromEnd data b hb, List.reverse_reverse] at this
  · exact linked_map (fromEnd data) (fun a b => joined_reverse regional nx data)

/-- C165: with `allow_merging=False`, two cells of the preprocessed field belong to the same event iff they do when the record is read backwards in
time: events without merging have no direction. -/
theorem C165_no_merging_time_reversal (cc : Labeller) (hcc : CorrectLabeller cc) (hnx : 0 < nx) (p : GridRun ny nx) (hm : p.allowMerging = false)
    (chunks chunks' : List Nat) (pre : List (Fin (ny * nx) → Bool)) (t u : Nat) (g g' k k' : Frame (ny * nx))
    (hg : (trackingGrid cc p chunks pre)[t]? = some g) (hg' : (trackingGrid cc p chunks pre)[u]? = some g')
    (hk : (trackingGrid cc p chunks' pre.reverse)[pre.length - 1 - t]? = some k)
    (hk' : (trackingGrid cc p chunks' pre.reverse)[pre.length - 1 - u]? = some k') (i j : Fin (ny * nx)) :
    (0 < g i ∧ g i = g' j) ↔ (0 < k i ∧ k i = k' j) := by
  have hlen : (trackingGrid cc p chunks pre).length = pre.length := by
    unfold trackingGrid; rw [hm]; exact length_identify ..
  have ht : t < pre.length := by rw [← hlen]; exact (List.getElem?_eq_some_iff.mp hg).1
  have hu : u < pre.length := by rw [← hlen]; exact (List.getElem?_eq_some_iff.mp hg').1
  rw [((C64_no_merging_events cc hcc hnx p hm chunks pre).1 t u g g' hg hg' i j).2,
    ((C64_no_merging_events cc hcc hnx p hm chunks' pre.reverse).1 _ _ k k' hk hk' i j).2,
    extreme_reverse pre t ht, extreme_reverse pre u hu]
  exact and_congr Iff.rfl (and_congr Iff.rfl (linked_reverse_iff p.regional nx pre (t, i) (u, j) ht hu).symm)

-- a record of three steps whose two spots meet in the last one: one event, forwards and backwards
example : (trackingGrid quickFind spotRun [] [fun i : Fin (2 * 4) => decide (i.val = 0 ∨ i.val = 2), fun i => decide (i.val = 0 ∨ i.val = 2), fun i => decide (i.val ≤ 2)]).map
      (fun g => (List.finRange 8).map g) = [[1, 0, 1, 0, 0, 0, 0, 0], [1, 0, 1, 0, 0, 0, 0, 0], [1, 1, 1, 0, 0, 0, 0, 0]] ∧
    (trackingGrid quickFind spotRun [] [fun i : Fin (2 * 4) => decide (i.val ≤ 2), fun i => decide (i.val = 0 ∨ i.val = 2), fun i => decide (i.val = 0 ∨ i.val = 2)]).map
      (fun g => (List.finRange 8).map g) = [[1, 1, 1, 0, 0, 0, 0, 0], [1, 0, 1, 0, 0, 0, 0, 0], [1, 0, 1, 0, 0, 0, 0, 0]] := by decide +kernel

end MarEx.Props
