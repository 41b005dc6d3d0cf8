import Verif.Lemmas.Rename
import Verif.Props.SplitMerge
/-! Properties C21–C24 and C26: events, presence, areas, merge ledger. -/
namespace MarEx.Props
open MarEx
open MarEx.Spec

variable {n : Nat}

/-! ### C22: events are the linked groups of objects -/

/-- **C22**: for the accepted overlap links of any object field, two labelled cells get the same event ID iff their objects are joined by a
chain of links; background stays background and nothing else becomes background; and the event IDs in the output are exactly 1..N. -/
theorem C22_events_are_linked_groups (cc : Labeller) (hcc : CorrectLabeller cc) (w : Fin n → ℚ) (thr : ℚ) (props : List Obj)
    (fs : List (Frame n)) :
    let links := enforceOverlap thr props (findOverlaps w fs)
    let out := renameField cc fs (links.map fun o => (o.a, o.b))
    out.length = fs.length ∧
    (∀ (t u : Nat) (f g f' g' : Frame n), fs[t]? = some f → fs[u]? = some g → out[t]? = some f' → out[u]? = some g' →
      ∀ i j, 0 < f i → 0 < g j → (f' i = g' j ↔ Linked (fun a b => Spec.LinkedTo links a b) (f i) (g j))) ∧
    (∀ (t : Nat) (f f' : Frame n), fs[t]? = some f → out[t]? = some f' → ∀ i, 0 < f' i ↔ 0 < f i) ∧
    ∃ N, ∀ k, (1 ≤ k ∧ k ≤ N) ↔ 0 < k ∧ ∃ f' ∈ out, ∃ i, f' i = k := by
  intro links out
  have hp := pairsInField_links w thr props fs
  have hout : ∀ (t : Nat) (f f' : Frame n), fs[t]? = some f → out[t]? = some f' →
      ∀ i, f' i = if 0 < f i then eventOf cc fs (links.map fun o => (o.a, o.b)) (f i) else 0 := by
    intro t f f' hf hf' i
    change (fs.map _)[t]? = some f' at hf'
    rw [List.getElem?_map, hf] at hf'
    simp only [Option.map_some, Option.some.injEq] at hf'
    rw [← hf']
  have hid : ∀ (t : Nat) (f : Frame n), fs[t]? = some f → ∀ i, 0 < f i → f i ∈ fieldIds fs :=
    fun t f hf i hi => mem_fieldIds.mpr ⟨hi, f, List.mem_of_getElem? hf, i, rfl⟩
  refine ⟨by simp [out, renameField], ?_, ?_, numEvents cc fs (links.map fun o => (o.a, o.b)), ?_⟩
  · intro t u f g f' g' hf hg hf' hg' i j hi hj
    rw [hout t f f' hf hf', hout u g g' hg hg', if_pos hi, if_pos hj, eventOf_eq_iff hcc hp (hid t f hf i hi) (hid u g hg j hj)]
    have e : ∀ a b, (a, b) ∈ (links.map fun o => (o.a, o.b)) ↔ Spec.LinkedTo links a b := by
      intro a b
      unfold Spec.LinkedTo
      rw [List.mem_map]
      constructor
      · rintro ⟨o, ho, h⟩; rw [Prod.mk.injEq] at h; exact ⟨o, ho, h⟩
      · rintro ⟨o, ho, h1, h2⟩; exact ⟨o, ho, by rw [h1, h2]⟩
    exact ⟨Linked.mono fun a b h => (e a b).mp h, Linked.mono fun a b h => (e a b).mpr h⟩
  · intro t f f' hf hf' i
    rw [hout t f f' hf hf']
    by_cases h : 0 < f i
    · rw [if_pos h]
      exact ⟨fun _ => h, fun _ => (eventOf_pos hp).mpr (hid t f hf i h)⟩
    · rw [if_neg h]; exact ⟨fun h0 => by omega, fun h0 => absurd h0 h⟩
  · intro k
    rw [eventOf_range hcc hp]
    constructor
    · rintro ⟨a, ha, rfl⟩
      obtain ⟨h0, f, hf, i, rfl⟩ := mem_fieldIds.mp ha
      refine ⟨(eventOf_pos hp).mpr ha, _, List.mem_map_of_mem hf, i, ?_⟩
      rw [if_pos h0]
    · rintro ⟨h0, f', hf', i, rfl⟩
      obtain ⟨f, hf, rfl⟩ := List.mem_map.mp hf'
      dsimp only at h0 ⊢
      by_cases h : 0 < f i
      · rw [if_pos h] at h0 ⊢
        exact ⟨f i, mem_fieldIds.mpr ⟨h, f, hf, i, rfl⟩, rfl⟩
      · rw [if_neg h] at h0; omega

-- non-vacuity: a chain 1–3–4 and a separate object 2; `quickFind` is a correct labeller
example : CorrectLabeller quickFind := quickFind_correct
example : let fs : List (Frame 4) := [fun i => if i.val = 0 then 1 else if i.val = 3 then 2 else 0, fun i => if i.val < 2 then 3 else 0, fun i => if i.val = 1 then 4 else 0]
    let props : List Obj := [⟨1, 1, (0, 0)⟩, ⟨2, 1, (0, 0)⟩, ⟨3, 2, (0, 0)⟩, ⟨4, 1, (0, 0)⟩]
    let links := enforceOverlap (1/2) props (findOverlaps (fun _ => 1) fs)
    links = [⟨1, 3, 1⟩, ⟨3, 4, 1⟩] ∧
    (renameField quickFind fs (links.map fun o => (o.a, o.b))).map (fun f => (List.finRange 4).map f) = [[1, 0, 0, 2], [1, 1, 0, 0], [0, 1, 0, 0]] := by
  decide +kernel

/-! ### C23: presence and times -/

/-- The cells of one output step: background stays, and the original and the new ID are both positive or both 0. -/
def SameCells (orig new : Frame n) : Prop := ∀ i, 0 < new i ↔ 0 < orig i

theorem globalId_spec (orig new : Frame n) (hs : SameCells orig new) (e : Nat) (he : 0 < e) :
    ((∃ i, new i = e) → (∃ i, orig i = globalId orig new e ∧ new i = e) ∧ 0 < globalId orig new e ∧
      ∀ i, new i = e → orig i ≤ globalId orig new e) ∧
    ((∀ i, new i ≠ e) → globalId orig new e = 0) := by
  unfold globalId
  dsimp only
  generalize hl : uniquePairs (((List.finRange n).filter fun i => decide (0 < new i)).map fun i => (orig i, new i)) = l
  have hmem : ∀ p, p ∈ l ↔ ∃ i, 0 < new i ∧ p = (orig i, new i) := by
    intro p
    rw [← hl, mem_uniquePairs, List.mem_map]
    constructor
    · rintro ⟨i, hi, rfl⟩
      rw [List.mem_filter, decide_eq_true_eq] at hi
      exact ⟨i, hi.2, rfl⟩
    · rintro ⟨i, hi, rfl⟩
      exact ⟨i, List.mem_filter.mpr ⟨List.mem_finRange _, by simpa using hi⟩, rfl⟩
  have hpos : ∀ p ∈ l, 0 < p.1 := by
    intro p hp
    obtain ⟨i, hi, rfl⟩ := (hmem p).mp hp
    exact (hs i).mp hi
  have hsort : (l.map (·.1)).Pairwise (· ≤ ·) := by
    rw [← hl]
    unfold uniquePairs
    rw [List.map_flatMap]
    have : ∀ (as : List Nat) (m : List (Nat × Nat)) (bs : List Nat), as.Pairwise (· < ·) →
        (as.flatMap fun a => ((bs.filter fun b => m.contains (a, b)).map fun b => (a, b)).map (·.1)).Pairwise (· ≤ ·) := by
      intro as m bs has
      rw [List.pairwise_flatMap]
      refine ⟨?_, ?_⟩
      · intro a _
        rw [List.map_map]
        exact List.pairwise_map.mpr (List.pairwise_iff_forall_sublist.mpr (fun _ => le_refl _))
      · refine has.imp ?_
        intro a b hab x hx y hy
        simp only [List.mem_map, List.mem_filter] at hx hy
        obtain ⟨_, ⟨_, _, rfl⟩, rfl⟩ := hx
        obtain ⟨_, ⟨_, _, rfl⟩, rfl⟩ := hy
        exact le_of_lt hab
    exact this _ _ _ (sorted_npUnique _)
  obtain ⟨h1, h2⟩ := foldl_last (e := e) hpos 0
  constructor
  · rintro ⟨i, hi⟩
    have hin : (orig i, e) ∈ l := (hmem _).mpr ⟨i, by omega, by rw [hi]⟩
    obtain ⟨h3, h4⟩ := h1 ⟨_, hin, rfl⟩
    obtain ⟨j, _, hj⟩ := (hmem _).mp h3
    rw [Prod.mk.injEq] at hj
    refine ⟨⟨j, hj.1.symm, hj.2.symm⟩, h4, ?_⟩
    intro k hk
    exact foldl_last_max hsort 0 (orig k, new k) ((hmem _).mpr ⟨k, by omega, rfl⟩) hk
  · intro hno
    apply h2
    intro p hp hpe
    obtain ⟨i, _, rfl⟩ := (hmem p).mp hp
    exact hno i hpe

/-- **C23**: for any renamed record and event `e`: at every step `e` is present iff some cell carries it; `global_ID` is then the largest
original ID among the cells of the event and 0 otherwise; if `e` occurs at all, `time_start` is its first and `time_end` its last step. -/
theorem C23_presence_and_times (fs nf : List (Frame n)) (hlen : nf.length = fs.length)
    (hs : ∀ (t : Nat) (f f' : Frame n), fs[t]? = some f → nf[t]? = some f' → SameCells f f') (e : Nat) (he : 0 < e) :
    (presenceOf fs nf e).length = fs.length ∧
    (∀ (t : Nat) (f f' : Frame n), fs[t]? = some f → nf[t]? = some f' →
      ((presenceOf fs nf e)[t]? = some true ↔ ∃ i, f' i = e) ∧
      (globalId f f' e = 0 ↔ ∀ i, f' i ≠ e) ∧
      ((∃ i, f' i = e) → (∃ i, f i = globalId f f' e ∧ f' i = e) ∧ ∀ i, f' i = e → f i ≤ globalId f f' e)) ∧
    ((∃ f' ∈ nf, ∃ i, f' i = e) →
      (∃ f', nf[timeStartIdx (presenceOf fs nf e)]? = some f' ∧ ∃ i, f' i = e) ∧
      (∃ f', nf[timeEndIdx (presenceOf fs nf e)]? = some f' ∧ ∃ i, f' i = e) ∧
      ∀ (t : Nat) (f' : Frame n), nf[t]? = some f' → (∃ i, f' i = e) →
        timeStartIdx (presenceOf fs nf e) ≤ t ∧ t ≤ timeEndIdx (presenceOf fs nf e)) := by
  have hget : ∀ (t : Nat) (f f' : Frame n), fs[t]? = some f → nf[t]? = some f' →
      (presenceOf fs nf e)[t]? = some (decide (0 < globalId f f' e)) := by
    intro t f f' hf hf'
    unfold presenceOf
    rw [List.getElem?_map, (List.getElem?_zip_eq_some (z := (f, f'))).mpr ⟨hf, hf'⟩]
    rfl
  have hpl : (presenceOf fs nf e).length = fs.length := by
    unfold presenceOf; rw [List.length_map, List.length_zip, hlen, Nat.min_self]
  have hpres : ∀ (t : Nat) (f f' : Frame n), fs[t]? = some f → nf[t]? = some f' →
      ((presenceOf fs nf e)[t]? = some true ↔ ∃ i, f' i = e) := by
    intro t f f' hf hf'
    rw [hget t f f' hf hf', Option.some.injEq, decide_eq_true_eq]
    obtain ⟨h1, h2⟩ := globalId_spec f f' (hs t f f' hf hf') e he
    constructor
    · intro h
      by_contra hc
      rw [h2 (fun i hi => hc ⟨i, hi⟩)] at h; omega
    · intro h; exact (h1 h).2.1
  have hpair : ∀ (t : Nat) (f' : Frame n), nf[t]? = some f' → ∃ f, fs[t]? = some f := by
    intro t f' h
    have := (List.getElem?_eq_some_iff.mp h).1
    exact ⟨fs[t]'(by omega), List.getElem?_eq_getElem _⟩
  have hpair' : ∀ (t : Nat), (presenceOf fs nf e)[t]? = some true → ∃ f', nf[t]? = some f' ∧ ∃ i, f' i = e := by
    intro t h
    have hlt := (List.getElem?_eq_some_iff.mp h).1
    have hf' : nf[t]? = some (nf[t]'(by omega)) := List.getElem?_eq_getElem _
    obtain ⟨f, hf⟩ := hpair t _ hf'
    exact ⟨_, hf', (hpres t f _ hf hf').mp h⟩
  refine ⟨hpl, ?_, ?_⟩
  · intro t f f' hf hf'
    obtain ⟨h1, h2⟩ := globalId_spec f f' (hs t f f' hf hf') e he
    refine ⟨hpres t f f' hf hf', ⟨fun h0 i hi => ?_, h2⟩, fun h => ⟨(h1 h).1, (h1 h).2.2⟩⟩
    have := (h1 ⟨i, hi⟩).2.1
    omega
  · rintro ⟨f', hf', i, hi⟩
    obtain ⟨t, ht⟩ := List.mem_iff_getElem?.mp hf'
    obtain ⟨f, hf⟩ := hpair t f' ht
    have htrue : true ∈ presenceOf fs nf e := List.mem_of_getElem? ((hpres t f f' hf ht).mpr ⟨i, hi⟩)
    obtain ⟨a1, a2⟩ := argmaxBool_spec htrue
    obtain ⟨b1, b2⟩ := timeEnd_spec htrue
    refine ⟨hpair' _ a1, hpair' _ b1, ?_⟩
    intro u g hg hgi
    obtain ⟨f2, hf2⟩ := hpair u g hg
    have hu := (hpres u f2 g hf2 hg).mpr hgi
    constructor
    · by_contra hc; exact a2 u (by unfold timeStartIdx at hc; omega) hu
    · by_contra hc; exact b2 u (by omega) hu

-- non-vacuity: event 1 is present at steps 1 and 2 of 4
example : let fs : List (Frame 2) := [fun _ => 0, fun _ => 5, fun i => if i.val = 0 then 7 else 9, fun i => if i.val = 0 then 0 else 8]
    let nf : List (Frame 2) := [fun _ => 0, fun _ => 1, fun _ => 1, fun i => if i.val = 0 then 0 else 2]
    presenceOf fs nf 1 = [false, true, true, false] ∧ timeStartIdx (presenceOf fs nf 1) = 1 ∧ timeEndIdx (presenceOf fs nf 1) = 2 ∧
    (fs.zip nf).map (fun p => globalId p.1 p.2 1) = [0, 5, 9, 0] := by decide +kernel

/-! ### C24: areas -/

theorem sum_filter_eq {w : Fin n → ℚ} (p : Fin n → Bool) (l : List (Fin n)) :
    ((l.filter p).map w).sum = (l.map fun i => if p i = true then w i else 0).sum := by
  induction l with
  | nil => simp
  | cons a l ih =>
    rw [List.filter_cons, List.map_cons, List.sum_cons]
    split
    · rename_i h; rw [List.map_cons, List.sum_cons, ih]
    · rename_i h; rw [ih, zero_add]

/-- **C24**: the area of an event at a step is missing iff no cell carries its ID then, and otherwise is the sum of the cell areas of the
cells carrying it; the areas of all events 1..N of the step sum to the area of all labelled cells. -/
theorem C24_areas (cellArea : Fin n → ℚ) (f f' : Frame n) (hs : SameCells f f') (N : Nat) (hN : ∀ i, f' i ≤ N) :
    (∀ e, 0 < e → eventArea cellArea (decide (0 < globalId f f' e)) f' e =
      if ∃ i, f' i = e then some (((List.finRange n).map fun i => if f' i = e then cellArea i else 0).sum) else none) ∧
    ((List.range' 1 N).map fun e => (eventArea cellArea (decide (0 < globalId f f' e)) f' e).getD 0).sum
      = ((List.finRange n).map fun i => if 0 < f' i then cellArea i else 0).sum := by
  have key : ∀ e, 0 < e → eventArea cellArea (decide (0 < globalId f f' e)) f' e =
      if ∃ i, f' i = e then some (weightOf cellArea f' e) else none := by
    intro e he
    obtain ⟨h1, h2⟩ := globalId_spec f f' hs e he
    unfold eventArea
    by_cases hx : ∃ i, f' i = e
    · have hany : ((List.finRange n).any fun i => f' i == e) = true := by
        obtain ⟨i, hi⟩ := hx
        exact List.any_eq_true.mpr ⟨i, List.mem_finRange _, by simpa using hi⟩
      rw [if_pos (by simp [hany, (h1 hx).2.1]), if_pos hx, sum_filter_eq]
      unfold weightOf
      congr 3
      funext i
      by_cases h : f' i = e <;> simp [h]
    · rw [if_neg hx, if_neg]
      rw [Bool.and_eq_true, List.any_eq_true]
      rintro ⟨_, i, _, hi⟩
      exact hx ⟨i, by simpa using hi⟩
  refine ⟨key, ?_⟩
  have e1 : ((List.range' 1 N).map fun e => (eventArea cellArea (decide (0 < globalId f f' e)) f' e).getD 0)
      = (List.range' 1 N).map (weightOf cellArea f') := by
    apply List.map_congr_left
    intro e he
    rw [List.mem_range'_1] at he
    rw [key e (by omega)]
    split
    · rfl
    · rename_i hx
      unfold weightOf
      rw [show ((List.finRange n).map fun i => if f' i = e then cellArea i else 0) = (List.finRange n).map fun _ => (0 : ℚ) from
        List.map_congr_left fun i _ => if_neg fun h => hx ⟨i, h⟩]
      simp
  rw [e1, sum_weightOf cellArea f' _ List.nodup_range']
  congr 1
  apply List.map_congr_left
  intro i _
  have := hN i
  by_cases h : 0 < f' i
  · rw [if_pos (by rw [List.mem_range'_1]; omega), if_pos h]
  · rw [if_neg (by rw [List.mem_range'_1]; omega), if_neg h]

-- non-vacuity: events 1 and 2 on four cells with areas 1, 2, 4, 8; event 3 is absent
example : let f' : Frame 4 := fun i => if i.val < 2 then 1 else if i.val = 3 then 2 else 0
    [1, 2, 3].map (fun e => eventArea (fun i => (2 : ℚ) ^ i.val) (decide (0 < globalId f' f' e)) f' e) = [some 3, some 8, none] := by decide +kernel

/-! ### C21 and the whole gridded pipeline -/

theorem areaOf_flatMap (c : TrackCfg n) (fs : List (Frame n)) (hu : Spec.TimeUnique fs) (k : Nat) :
    (∀ f ∈ fs, (0 < k ∧ ∃ i, f i = k) → areaOf (fs.flatMap (calcProps c)) k = some (weightOf c.w f k)) ∧
    (hasId (fs.flatMap (calcProps c)) k = true ↔ 0 < k ∧ ∃ f ∈ fs, ∃ i, f i = k) := by
  constructor
  · induction fs with
    | nil => simp
    | cons g fs ih =>
      intro f hf hk
      rw [Spec.TimeUnique, List.pairwise_cons] at hu
      rw [List.flatMap_cons, areaOf_append, calcProps, areaOf_map_objOf]
      rcases List.mem_cons.mp hf with rfl | hf
      · rw [if_pos (mem_idsOf'.mpr hk)]; rfl
      · rw [if_neg]
        · exact ih hu.2 f hf hk
        · intro h
          obtain ⟨h0, i, hi⟩ := mem_idsOf'.mp h
          obtain ⟨_, j, hj⟩ := hk
          exact hu.1 f hf i j (by omega) (by omega)
  · unfold hasId
    rw [List.any_eq_true]
    constructor
    · rintro ⟨o, ho, hk⟩
      rw [beq_iff_eq] at hk
      obtain ⟨f, hf, ho⟩ := List.mem_flatMap.mp ho
      unfold calcProps at ho
      obtain ⟨x, hx, rfl⟩ := List.mem_map.mp ho
      obtain ⟨h0, i, hi⟩ := mem_idsOf'.mp hx
      change x = k at hk
      exact ⟨by omega, f, hf, i, by omega⟩
    · rintro ⟨h0, f, hf, i, hi⟩
      refine ⟨objOf c f k, List.mem_flatMap.mpr ⟨f, hf, ?_⟩, by simp [objOf]⟩
      unfold calcProps
      exact List.mem_map_of_mem (mem_idsOf'.mpr ⟨h0, i, hi⟩)

theorem tableExact_calcProps (c : TrackCfg n) (fs : List (Frame n)) (hu : Spec.TimeUnique fs) :
    Spec.TableExact c.w fs (fs.flatMap (calcProps c)) :=
  ⟨fun k => (areaOf_flatMap c fs hu k).2, fun f hf i hi => (areaOf_flatMap c fs hu (f i)).1 f hf ⟨hi, i, rfl⟩⟩

/-- **C21**, structured grids: for any label field with IDs that do not repeat in time, at the end of tracking (property table, splitting,
merging, consolidation, clustering, renaming) a cell carries a positive event ID at a step iff it carried a label. -/
theorem C21_tracking_keeps_support (cc : Labeller) (wrap nn : Bool) (ny nx : Nat) (thr : ℚ) (cen : Frame n → Nat → ℚ × ℚ)
    (chunks : List (List (Frame n))) (hu : Spec.TimeUnique chunks.flatten) :
    let out := (trackGrid cc (gridCfg wrap nn ny nx thr cen) chunks).idField
    out.length = chunks.flatten.length ∧
    ∀ (t : Nat) (f g : Frame n), chunks.flatten[t]? = some f → out[t]? = some g → ∀ i, 0 < g i ↔ 0 < f i := by
  intro out
  have ht := tableExact_calcProps (gridCfg wrap nn ny nx thr cen) chunks.flatten hu
  obtain ⟨hl, hs⟩ := C21_split_merge_keeps_support wrap nn ny nx thr cen chunks _ hu ht
  have hlo : out.length = chunks.flatten.length := by
    rw [← hl]; simp only [out, trackGrid, renameField, List.length_map]
  refine ⟨hlo, ?_⟩
  intro t f g hf hg i
  have hlt := (List.getElem?_eq_some_iff.mp hf).1
  have hm : (splitAndMerge (gridCfg wrap nn ny nx thr cen) chunks (chunks.flatten.flatMap (calcProps (gridCfg wrap nn ny nx thr cen)))).field[t]?
      = some ((splitAndMerge (gridCfg wrap nn ny nx thr cen) chunks (chunks.flatten.flatMap (calcProps (gridCfg wrap nn ny nx thr cen)))).field[t]'(by
        rw [hl]; exact hlt)) := List.getElem?_eq_getElem _
  rw [← hs t f _ hf hm i]
  change (renameField cc _ _)[t]? = some g at hg
  unfold renameField at hg
  rw [List.getElem?_map, hm] at hg
  simp only [Option.map_some, Option.some.injEq] at hg
  rw [← hg]
  dsimp only
  generalize hF : splitAndMerge (gridCfg wrap nn ny nx thr cen) chunks (chunks.flatten.flatMap (calcProps (gridCfg wrap nn ny nx thr cen))) = r at *
  have hp : PairsInField r.field (r.links.map fun o => (o.a, o.b)) := by
    rw [← hF]; exact pairsInField_links _ _ _ _
  split
  · rename_i h
    exact ⟨fun _ => h, fun _ => (eventOf_pos hp).mpr (mem_fieldIds.mpr ⟨h, _, List.mem_of_getElem? hm, i, rfl⟩)⟩
  · rename_i h
    exact ⟨fun h0 => absurd h0 (by omega), fun h0 => absurd h0 h⟩

-- non-vacuity: two objects merge and split again; the two events keep their identity
example : (trackGrid quickFind (gridCfg true false 1 6 (1/2) (fun f k => if f 0 = k then (0, 0) else (0, 5))) [exRecord]).idField.map
    (fun h => (List.finRange 6).map h) = [[1, 1, 0, 0, 2, 2], [1, 1, 1, 2, 2, 2], [1, 1, 1, 0, 0, 2]] := by decide +kernel

/-! ### C26: merge ledger -/

theorem ledgerWrite_cases (res : Nat → Nat → Int) (ids : List Nat) (slot e : Nat) :
    (e ∈ ids ∧ 0 < e → ledgerWrite res ids slot e = e) ∧ (¬ (e ∈ ids ∧ 0 < e) → ledgerWrite res ids slot e = res slot e) := by
  unfold ledgerWrite
  induction ids generalizing res with
  | nil => simp
  | cons v ids ih =>
    rw [List.foldl_cons]
    obtain ⟨h1, h2⟩ := ih (if 0 < v then fun slot e => if e = v then (v : Int) else res slot e else res)
    constructor
    · rintro ⟨hm, h0⟩
      by_cases hin : e ∈ ids
      · exact h1 ⟨hin, h0⟩
      · have hev : e = v := by simpa [hin] using hm
        rw [h2 (fun h => hin h.1), if_pos (by omega)]
        simp [hev]
    · intro hn
      rw [h2 (fun h => hn ⟨by simp [h.1], h.2⟩)]
      by_cases hv : 0 < v
      · rw [if_pos hv]
        rw [if_neg]
        intro hev
        exact hn ⟨by simp [hev], by omega⟩
      · rw [if_neg hv]

theorem foldl_ledgerWrite (ls : List (List Nat)) (res : Nat → Nat → Int) (slot e : Nat) :
    ((∃ ids ∈ ls, e ∈ ids ∧ 0 < e) → ls.foldl ledgerWrite res slot e = e) ∧
    ((∀ ids ∈ ls, ¬ (e ∈ ids ∧ 0 < e)) → ls.foldl ledgerWrite res slot e = res slot e) := by
  induction ls generalizing res with
  | nil => simp
  | cons a ls ih =>
    obtain ⟨h1, h2⟩ := ih (ledgerWrite res a)
    obtain ⟨g1, g2⟩ := ledgerWrite_cases res a slot e
    rw [List.foldl_cons]
    constructor
    · intro hex
      by_cases hl : ∃ ids ∈ ls, e ∈ ids ∧ 0 < e
      · exact h1 hl
      · rw [h2 (fun ids hi h => hl ⟨ids, hi, h⟩)]
        obtain ⟨ids, hi, h⟩ := hex
        rcases List.mem_cons.mp hi with rfl | hi
        · exact g1 h
        · exact absurd ⟨ids, hi, h⟩ hl
    · intro hno
      rw [h2 (fun ids hi => hno ids (by simp [hi])), g2 (hno a (by simp))]

/-- **C26**, proved part: at a time step the ledger of an event differs from -1 iff the event is (the event of) a parent in a merge record of
that step; this holds for every sibling slot.
Missing: that the listed IDs are those of the merging partners (`C26_siblings_fails`). -/
theorem C26_minus_one_iff_no_merge_partial (ev : Nat → Nat) (recs : List MergeRec) (t slot e : Nat) (he : 0 < e) :
    ledgerAt ev recs t slot e ≠ -1 ↔ ∃ r ∈ recs, r.time = t ∧ ∃ p ∈ r.parents, ev p = e := by
  unfold ledgerAt
  obtain ⟨h1, h2⟩ := foldl_ledgerWrite ((recs.filter fun r => r.time == t).map fun r => r.parents.map ev) (fun _ _ => -1) slot e
  constructor
  · intro h
    by_contra hc
    apply h
    apply h2
    rintro ids hids ⟨hm, _⟩
    obtain ⟨r, hr, rfl⟩ := List.mem_map.mp hids
    obtain ⟨p, hp, hpe⟩ := List.mem_map.mp hm
    rw [List.mem_filter, beq_iff_eq] at hr
    exact hc ⟨r, hr.1, hr.2, p, hp, hpe⟩
  · rintro ⟨r, hr, ht, p, hp, hpe⟩
    rw [h1 ⟨r.parents.map ev, List.mem_map.mpr ⟨r, List.mem_filter.mpr ⟨hr, by simpa using ht⟩, rfl⟩, List.mem_map.mpr ⟨p, hp, hpe⟩, he⟩]
    omega

/-- **C26** fails: whatever the merges, every entry of the ledger of an event is -1 or the ID of the event itself, so no merging partner
is ever listed. -/
theorem C26_only_own_id_fails (ev : Nat → Nat) (recs : List MergeRec) (t slot e : Nat) :
    ledgerAt ev recs t slot e = -1 ∨ ledgerAt ev recs t slot e = e := by
  unfold ledgerAt
  obtain ⟨h1, h2⟩ := foldl_ledgerWrite ((recs.filter fun r => r.time == t).map fun r => r.parents.map ev) (fun _ _ => -1) slot e
  by_cases h : ∃ ids ∈ ((recs.filter fun r => r.time == t).map fun r => r.parents.map ev), e ∈ ids ∧ 0 < e
  · exact .inr (h1 h)
  · exact .inl (h2 fun ids hi hh => h ⟨ids, hi, hh⟩)

/-- **C26** fails on a run of the whole tracker: events 1 and 2 merge at step 1, and the ledger of event 1 is [1, 1], that of event 2 [2, 2]. -/
theorem C26_siblings_fails :
    let r := trackGrid quickFind (gridCfg true false 1 6 (1/2) (fun f k => if f 0 = k then (0, 0) else (0, 5))) [exRecord]
    let ev := eventOf quickFind r.objects.field (r.objects.links.map fun o => (o.a, o.b))
    r.objects.merges.map (fun m => (m.time, m.parents.map ev)) = [(1, [1, 2])] ∧
    [0, 1].map (fun s => ledgerAt ev r.objects.merges 1 s 1) = [1, 1] ∧ [0, 1].map (fun s => ledgerAt ev r.objects.merges 1 s 2) = [2, 2] := by
  decide +kernel

end MarEx.Props
