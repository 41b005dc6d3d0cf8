import Verif.Model.Rename
import Verif.Lemmas.Overlap
import Verif.Lemmas.Components
import Verif.Lemmas.Driver
/-! Lemmas about clustering and renaming. -/
namespace MarEx
open Spec (Linked CorrectLabeller)

variable {n : Nat}

theorem mem_fieldIds {fs : List (Frame n)} {k : Nat} : k ∈ fieldIds fs ↔ 0 < k ∧ ∃ f ∈ fs, ∃ i, f i = k := by
  unfold fieldIds
  rw [List.mem_filter, mem_npUnique, decide_eq_true_eq, List.mem_flatMap]
  constructor
  · rintro ⟨⟨f, hf, h⟩, h0⟩
    obtain ⟨i, _, rfl⟩ := List.mem_map.mp h
    exact ⟨h0, f, hf, i, rfl⟩
  · rintro ⟨h0, f, hf, i, rfl⟩
    exact ⟨⟨f, hf, List.mem_map_of_mem (List.mem_finRange i)⟩, h0⟩

/-- All paired IDs occur in the field. -/
def PairsInField (fs : List (Frame n)) (pairs : List (Nat × Nat)) : Prop :=
  ∀ p ∈ pairs, p.1 ∈ fieldIds fs ∧ p.2 ∈ fieldIds fs

theorem mem_allValidIds {fs : List (Frame n)} {pairs : List (Nat × Nat)} (h : PairsInField fs pairs) {k : Nat} :
    k ∈ allValidIds fs pairs ↔ 0 < k ∧ ∃ f ∈ fs, ∃ i, f i = k := by
  unfold allValidIds
  rw [mem_npUnique, List.mem_append, mem_fieldIds]
  constructor
  · rintro (h1 | h1)
    · unfold overlapIds at h1
      rw [List.mem_filter, mem_npUnique, List.mem_flatMap] at h1
      obtain ⟨⟨p, hp, hk⟩, _⟩ := h1
      obtain ⟨ha, hb⟩ := h p hp
      simp only [List.mem_cons, List.not_mem_nil, or_false] at hk
      rcases hk with rfl | rfl
      · exact mem_fieldIds.mp ha
      · exact mem_fieldIds.mp hb
    · exact h1
  · exact Or.inr

theorem densePairs_below (ids : List Nat) (pairs : List (Nat × Nat)) : Spec.EdgesBelow ids.length (densePairs ids pairs) := by
  intro e he
  unfold densePairs at he
  obtain ⟨p, hp, rfl⟩ := List.mem_map.mp he
  rw [List.mem_filter, Bool.and_eq_true, List.contains_iff_mem, List.contains_iff_mem] at hp
  exact ⟨List.idxOf_lt_length_of_mem hp.2.1, List.idxOf_lt_length_of_mem hp.2.2⟩

theorem linked_dense_iff {ids : List Nat} {pairs : List (Nat × Nat)} (hin : ∀ p ∈ pairs, p.1 ∈ ids ∧ p.2 ∈ ids)
    {a b : Nat} (ha : a ∈ ids) (hb : b ∈ ids) :
    Linked (fun u v => (u, v) ∈ densePairs ids pairs) (ids.idxOf a) (ids.idxOf b) ↔ Linked (fun u v => (u, v) ∈ pairs) a b := by
  have back : ∀ k ∈ ids, ids.getD (ids.idxOf k) 0 = k := by
    intro k hk
    have hlt := List.idxOf_lt_length_of_mem hk
    rw [List.getD_eq_getElem _ _ hlt, List.getElem_idxOf]
  constructor
  · intro h
    have := Linked.map (F := fun u v => (u, v) ∈ pairs) (fun k => ids.getD k 0) (fun u v huv => by
      unfold densePairs at huv
      obtain ⟨p, hp, e⟩ := List.mem_map.mp huv
      rw [List.mem_filter] at hp
      rw [Prod.mk.injEq] at e
      obtain ⟨rfl, rfl⟩ := e
      obtain ⟨h1, h2⟩ := hin p hp.1
      rw [back _ h1, back _ h2]
      exact .fwd (.refl _) hp.1) h
    rwa [back a ha, back b hb] at this
  · intro h
    exact Linked.map (fun k => ids.idxOf k) (fun u v huv => by
      obtain ⟨h1, h2⟩ := hin _ huv
      refine .fwd (.refl _) ?_
      unfold densePairs
      exact List.mem_map.mpr ⟨(u, v), List.mem_filter.mpr ⟨huv, by simp only [Bool.and_eq_true, List.contains_iff_mem]; exact ⟨h1, h2⟩⟩, rfl⟩) h

theorem eventOf_eq_iff {cc : Labeller} (hcc : CorrectLabeller cc) {fs : List (Frame n)} {pairs : List (Nat × Nat)} (hp : PairsInField fs pairs)
    {a b : Nat} (ha : a ∈ fieldIds fs) (hb : b ∈ fieldIds fs) :
    eventOf cc fs pairs a = eventOf cc fs pairs b ↔ Linked (fun u v => (u, v) ∈ pairs) a b := by
  have hmem : ∀ k, k ∈ fieldIds fs ↔ k ∈ allValidIds fs pairs := fun k => by rw [mem_allValidIds hp, mem_fieldIds]
  rw [hmem] at ha hb
  unfold eventOf
  dsimp only
  rw [if_pos (by simpa using ha), if_pos (by simpa using hb), Nat.add_right_cancel_iff]
  rw [(hcc _ _ (densePairs_below _ _)).same_iff _ _ (List.idxOf_lt_length_of_mem ha) (List.idxOf_lt_length_of_mem hb)]
  exact linked_dense_iff (fun p h => ⟨(hmem _).mp (hp p h).1, (hmem _).mp (hp p h).2⟩) ha hb

theorem eventOf_pos {cc : Labeller} {fs : List (Frame n)} {pairs : List (Nat × Nat)} (hp : PairsInField fs pairs) {a : Nat} :
    0 < eventOf cc fs pairs a ↔ a ∈ fieldIds fs := by
  rw [mem_fieldIds, ← mem_allValidIds hp]
  unfold eventOf
  dsimp only
  split
  · rename_i h; simpa using h
  · rename_i h; simp at h; simp [h]

theorem eventOf_range {cc : Labeller} (hcc : CorrectLabeller cc) {fs : List (Frame n)} {pairs : List (Nat × Nat)} (hp : PairsInField fs pairs)
    (k : Nat) : (1 ≤ k ∧ k ≤ numEvents cc fs pairs) ↔ ∃ a ∈ fieldIds fs, eventOf cc fs pairs a = k := by
  have hmem : ∀ k, k ∈ fieldIds fs ↔ k ∈ allValidIds fs pairs := fun k => by rw [mem_allValidIds hp, mem_fieldIds]
  have hl := (hcc _ _ (densePairs_below (allValidIds fs pairs) pairs)).labels
  unfold numEvents
  constructor
  · rintro ⟨h1, h2⟩
    obtain ⟨x, hx, hxk⟩ := (hl (k - 1)).mp (by omega)
    refine ⟨(allValidIds fs pairs)[x], (hmem _).mpr (List.getElem_mem _), ?_⟩
    unfold eventOf
    dsimp only
    rw [if_pos (by simpa using List.getElem_mem hx)]
    rw [List.Nodup.idxOf_getElem (show (allValidIds fs pairs).Nodup from nodup_npUnique _), hxk]; omega
  · rintro ⟨a, ha, rfl⟩
    rw [hmem] at ha
    unfold eventOf
    dsimp only
    rw [if_pos (by simpa using ha)]
    have := (hl _).mpr ⟨_, List.idxOf_lt_length_of_mem ha, rfl⟩
    omega

theorem pairsInField_links (w : Fin n → ℚ) (thr : ℚ) (props : List Obj) (fs : List (Frame n)) :
    PairsInField fs ((enforceOverlap thr props (findOverlaps w fs)).map fun o => (o.a, o.b)) := by
  intro p hp
  obtain ⟨o, ho, rfl⟩ := List.mem_map.mp hp
  unfold enforceOverlap at ho
  obtain ⟨h1, h2, ⟨q, hq, i, hi, hj⟩, _⟩ := mem_findOverlaps.mp (List.mem_filter.mp ho).1
  have hz := List.of_mem_zip (a := q.1) (b := q.2) hq
  exact ⟨mem_fieldIds.mpr ⟨h1, q.1, hz.1, i, hi⟩, mem_fieldIds.mpr ⟨h2, q.2, List.mem_of_mem_tail hz.2, i, hj⟩⟩

/-! ### presence -/

theorem foldl_last {l : List (Nat × Nat)} {e : Nat} (hpos : ∀ p ∈ l, 0 < p.1) (r : Nat) :
    let g := l.foldl (fun r p => if p.2 = e then p.1 else r) r
    ((∃ p ∈ l, p.2 = e) → (g, e) ∈ l ∧ 0 < g) ∧ ((∀ p ∈ l, p.2 ≠ e) → g = r) := by
  induction l generalizing r with
  | nil => simp
  | cons a l ih =>
    obtain ⟨h1, h2⟩ := ih (fun p hp => hpos p (by simp [hp])) (if a.2 = e then a.1 else r)
    dsimp only at *
    rw [List.foldl_cons]
    constructor
    · intro hex
      by_cases hl : ∃ p ∈ l, p.2 = e
      · obtain ⟨h3, h4⟩ := h1 hl
        exact ⟨by simp [h3], h4⟩
      · have hl' : ∀ p ∈ l, p.2 ≠ e := fun p hp he => hl ⟨p, hp, he⟩
        rw [h2 hl']
        obtain ⟨p, hp, hpe⟩ := hex
        rcases List.mem_cons.mp hp with rfl | hp
        · rw [if_pos hpe]
          exact ⟨by rw [← hpe]; simp, hpos _ (by simp)⟩
        · exact absurd hpe (hl' p hp)
    · intro hno
      rw [h2 (fun p hp => hno p (by simp [hp])), if_neg (hno a (by simp))]

theorem foldl_last_max {l : List (Nat × Nat)} {e : Nat} (hs : (l.map (·.1)).Pairwise (· ≤ ·)) (r : Nat) :
    ∀ p ∈ l, p.2 = e → p.1 ≤ l.foldl (fun r p => if p.2 = e then p.1 else r) r := by
  induction l generalizing r with
  | nil => simp
  | cons a l ih =>
    intro p hp he
    rw [List.map_cons, List.pairwise_cons] at hs
    rw [List.foldl_cons]
    rcases List.mem_cons.mp hp with rfl | hp
    · rw [if_pos he]
      by_cases hl : ∃ q ∈ l, q.2 = e
      · obtain ⟨q, hq, hqe⟩ := hl
        exact le_trans (hs.1 q.1 (List.mem_map_of_mem hq)) (ih hs.2 _ q hq hqe)
      · have : ∀ (l : List (Nat × Nat)), (∀ q ∈ l, q.2 ≠ e) → ∀ r, l.foldl (fun r p => if p.2 = e then p.1 else r) r = r := by
          intro l
          induction l with
          | nil => simp
          | cons b l ihl =>
            intro h r
            rw [List.foldl_cons, if_neg (h b (by simp)), ihl (fun q hq => h q (by simp [hq]))]
        rw [this l (fun q hq hqe => hl ⟨q, hq, hqe⟩)]
    · exact ih hs.2 _ p hp he

theorem argmaxBool_spec {l : List Bool} (h : true ∈ l) : l[argmaxBool l]? = some true ∧ ∀ j, j < argmaxBool l → l[j]? ≠ some true := by
  unfold argmaxBool
  rw [if_pos (by simpa using h)]
  refine ⟨?_, ?_⟩
  · rw [List.getElem?_eq_getElem (List.idxOf_lt_length_of_mem h), List.getElem_idxOf]
  · intro j hj hc
    obtain ⟨hlt, he⟩ := List.getElem?_eq_some_iff.mp hc
    have := List.not_of_lt_findIdx (p := (· == true)) hj
    rw [he] at this
    cases this

theorem timeEnd_spec {l : List Bool} (h : true ∈ l) : l[timeEndIdx l]? = some true ∧ ∀ j, timeEndIdx l < j → l[j]? ≠ some true := by
  obtain ⟨h1, h2⟩ := argmaxBool_spec (l := l.reverse) (by simpa using h)
  unfold timeEndIdx
  have hlt : argmaxBool l.reverse < l.length := by
    have := (List.getElem?_eq_some_iff.mp h1).1; simpa using this
  rw [List.getElem?_reverse hlt] at h1
  refine ⟨by rw [show l.length - 1 - argmaxBool l.reverse = l.length - 1 - argmaxBool l.reverse from rfl]; exact h1, ?_⟩
  intro j hj hc
  have hjl := (List.getElem?_eq_some_iff.mp hc).1
  have := h2 (l.length - 1 - j) (by omega)
  rw [List.getElem?_reverse (by omega), show l.length - 1 - (l.length - 1 - j) = j by omega] at this
  exact this hc

end MarEx
