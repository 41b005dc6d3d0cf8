import Verif.Props.Numbering
import Verif.Props.Morphology
import Verif.Props.Appended
import Verif.Props.Symmetry
/-! C207: the orientation of the map does not matter to tracking on a grid. -/
namespace MarEx.Spec

/-- Position `k` of an axis of `m` cells, counted from the other end if `b`. -/
def fromOtherEnd (b : Bool) (m k : Nat) : Nat := if b then m - 1 - k else k

theorem fromOtherEnd_lt {b : Bool} {m k : Nat} (h : k < m) : fromOtherEnd b m k < m := by
  unfold fromOtherEnd; split <;> omega

/-- The number of cell `i` on a map of the same cells whose rows (`rows`) or columns (`cols`) come in the opposite order. -/
def mirrorCell (rows cols : Bool) (ny nx : Nat) (i : Fin (ny * nx)) : Fin (ny * nx) :=
  ⟨fromOtherEnd rows ny (i.val / nx) * nx + fromOtherEnd cols nx (i.val % nx), by
    have hx : 0 < nx := Nat.pos_of_ne_zero fun h => by subst h; exact absurd i.isLt (by simp)
    have h1 : fromOtherEnd rows ny (i.val / nx) < ny := fromOtherEnd_lt (Nat.div_lt_of_lt_mul (lt_of_lt_of_eq i.isLt (Nat.mul_comm _ _)))
    have h2 : fromOtherEnd cols nx (i.val % nx) < nx := fromOtherEnd_lt (Nat.mod_lt _ hx)
    calc _ < fromOtherEnd rows ny (i.val / nx) * nx + nx := by omega
      _ = (fromOtherEnd rows ny (i.val / nx) + 1) * nx := by ring
      _ ≤ ny * nx := Nat.mul_le_mul_right _ h1⟩

/-- At the first step with extremes they form one object. -/
def OneFirst {n : Nat} (regional : Bool) (nx : Nat) (F : List (Fin n → Bool)) : Prop :=
  ∀ t i j, (∀ s, s < t → ∀ k, ¬ IsExtreme F s k) → IsExtreme F t i → IsExtreme F t j → Linked (JoinedInStep regional nx F t) i j

end MarEx.Spec

namespace MarEx.Props
open MarEx Spec

variable {n : Nat}

theorem nx_pos {ny nx : Nat} (i : Fin (ny * nx)) : 0 < nx := Nat.pos_of_ne_zero fun h => by subst h; exact absurd i.isLt (by simp)

theorem row_lt {ny nx : Nat} (i : Fin (ny * nx)) : i.val / nx < ny := Nat.div_lt_of_lt_mul (lt_of_lt_of_eq i.isLt (Nat.mul_comm _ _))

theorem mirrorCell_row (rows cols : Bool) (ny nx : Nat) (i : Fin (ny * nx)) : (mirrorCell rows cols ny nx i).val / nx = fromOtherEnd rows ny (i.val / nx) := by
  unfold mirrorCell
  dsimp only
  rw [Nat.mul_comm, Nat.mul_add_div (nx_pos i), Nat.div_eq_of_lt (fromOtherEnd_lt (Nat.mod_lt _ (nx_pos i))), Nat.add_zero]

theorem mirrorCell_col (rows cols : Bool) (ny nx : Nat) (i : Fin (ny * nx)) : (mirrorCell rows cols ny nx i).val % nx = fromOtherEnd cols nx (i.val % nx) := by
  unfold mirrorCell
  dsimp only
  rw [Nat.mul_comm, Nat.mul_add_mod, Nat.mod_eq_of_lt (fromOtherEnd_lt (Nat.mod_lt _ (nx_pos i)))]

theorem mirrorCell_mirrorCell (rows cols : Bool) (ny nx : Nat) (i : Fin (ny * nx)) : mirrorCell rows cols ny nx (mirrorCell rows cols ny nx i) = i := by
  apply Fin.ext
  have h1 := mirrorCell_row rows cols ny nx i
  have h2 := mirrorCell_col rows cols ny nx i
  have r := row_lt i
  have c := Nat.mod_lt i.val (nx_pos i)
  change fromOtherEnd rows ny ((mirrorCell rows cols ny nx i).val / nx) * nx + fromOtherEnd cols nx ((mirrorCell rows cols ny nx i).val % nx) = i.val
  rw [h1, h2]
  have e1 : fromOtherEnd rows ny (fromOtherEnd rows ny (i.val / nx)) = i.val / nx := by
    generalize i.val / nx = q at r
    unfold fromOtherEnd; split <;> omega
  have e2 : fromOtherEnd cols nx (fromOtherEnd cols nx (i.val % nx)) = i.val % nx := by unfold fromOtherEnd; split <;> omega
  rw [e1, e2]
  exact Nat.div_add_mod' _ _

/-- The renumbering of the cells. -/
def mirror (rows cols : Bool) (ny nx : Nat) : Equiv.Perm (Fin (ny * nx)) := Function.Involutive.toPerm (mirrorCell rows cols ny nx) (mirrorCell_mirrorCell rows cols ny nx)

theorem mirror_apply (rows cols : Bool) (ny nx : Nat) (i : Fin (ny * nx)) : mirror rows cols ny nx i = mirrorCell rows cols ny nx i := rfl

theorem mirror_symm (rows cols : Bool) (ny nx : Nat) (i : Fin (ny * nx)) : (mirror rows cols ny nx).symm i = mirrorCell rows cols ny nx i := rfl

theorem emod_otherEnd (m a : Int) (hm : 0 < m) : (m - 1 - a) % m = m - 1 - a % m := by
  have h1 := Int.emod_nonneg a (ne_of_gt hm)
  have h2 := Int.emod_lt_of_pos a hm
  have h3 := Int.emod_add_mul_ediv a m
  have : m - 1 - a = m - 1 - a % m + m * (-(a / m)) := by rw [mul_neg]; omega
  rw [this, Int.add_mul_emod_self_left, Int.emod_eq_of_lt (by omega) (by omega)]

theorem touch_mirror (rows cols : Bool) (ny nx : Nat) (regional : Bool) {i j : Fin (ny * nx)} (h : Touch regional nx i j) :
    Touch regional nx (mirror rows cols ny nx i) (mirror rows cols ny nx j) := by
  obtain ⟨h1, d, hd, h2⟩ := h
  have r := row_lt i
  have r' := row_lt j
  have hx := nx_pos i
  have c := Nat.mod_lt i.val hx
  have c' := Nat.mod_lt j.val hx
  rw [mirror_apply, mirror_apply]
  refine ⟨?_, if cols then -d else d, ?_, ?_⟩
  · have e1 := mirrorCell_row rows cols ny nx i
    have e2 := mirrorCell_row rows cols ny nx j
    rw [← Int.natCast_ediv, ← Int.natCast_ediv] at h1 ⊢
    rw [e1, e2]
    unfold fromOtherEnd
    generalize i.val / nx = a at *
    generalize j.val / nx = b at *
    split <;> omega
  · split <;> omega
  · rw [mirrorCell_col, mirrorCell_col]
    generalize i.val % nx = a at *
    generalize j.val % nx = b at *
    unfold fromOtherEnd
    cases cols
    · simpa using h2
    · simp only [if_true]
      cases regional
      · simp only [Bool.false_eq_true, if_false] at h2 ⊢
        have := emod_otherEnd nx ((a : Int) + d) (by omega)
        rw [← h2] at this
        rw [show ((nx - 1 - a : Nat) : Int) + -d = (nx : Int) - 1 - (a + d) by omega, this]
        omega
      · simp only [if_true] at h2 ⊢
        omega

theorem touch_mirror_iff (rows cols : Bool) (ny nx : Nat) (regional : Bool) (i j : Fin (ny * nx)) :
    Touch regional nx (mirror rows cols ny nx i) (mirror rows cols ny nx j) ↔ Touch regional nx i j := by
  constructor
  · intro h
    have := touch_mirror rows cols ny nx regional h
    rwa [mirror_apply, mirror_apply, mirror_apply, mirror_apply, mirrorCell_mirrorCell, mirrorCell_mirrorCell] at this
  · exact touch_mirror rows cols ny nx regional

/-! ### Hole filling -/

/-- A position on the axis of a map of `m` rows or columns, from the other end if `b`; positions outside the map included. -/
def otherEnd (b : Bool) (m k : Int) : Int := if b then m - 1 - k else k

theorem otherEnd_otherEnd (b : Bool) (m k : Int) : otherEnd b m (otherEnd b m k) = k := by unfold otherEnd; split <;> omega

theorem within_flip {R : Nat} (a b : Bool) (ny nx : Int) (y x y' x' : Int) :
    Within R (otherEnd a ny y) (otherEnd b nx x) (otherEnd a ny y') (otherEnd b nx x') ↔ Within R y x y' x' := by
  unfold Within otherEnd
  have e1 : ((if a then ny - 1 - y' else y') - (if a then ny - 1 - y else y)) ^ 2 = (y' - y) ^ 2 := by split <;> ring
  have e2 : ((if b then nx - 1 - x' else x') - (if b then nx - 1 - x else x)) ^ 2 = (x' - x) ^ 2 := by split <;> ring
  rw [e1, e2]

section
variable {R : Nat} {a b : Bool} {ny nx : Int} {X X' : Int → Int → Prop}

theorem dilated_flip (h : ∀ y x, X' y x ↔ X (otherEnd a ny y) (otherEnd b nx x)) (y x : Int) :
    Dilated R X' y x ↔ Dilated R X (otherEnd a ny y) (otherEnd b nx x) := by
  constructor
  · rintro ⟨y', x', hw, hX⟩
    exact ⟨_, _, (within_flip a b ny nx y x y' x').2 hw, (h y' x').1 hX⟩
  · rintro ⟨y', x', hw, hX⟩
    refine ⟨otherEnd a ny y', otherEnd b nx x', (within_flip a b ny nx _ _ _ _).1 (by rwa [otherEnd_otherEnd, otherEnd_otherEnd]), (h _ _).2 ?_⟩
    rwa [otherEnd_otherEnd, otherEnd_otherEnd]

theorem eroded_flip (h : ∀ y x, X' y x ↔ X (otherEnd a ny y) (otherEnd b nx x)) (y x : Int) :
    Eroded R X' y x ↔ Eroded R X (otherEnd a ny y) (otherEnd b nx x) := by
  constructor
  · intro q y' x' hw
    have := (h _ _).1 (q (otherEnd a ny y') (otherEnd b nx x') ((within_flip a b ny nx _ _ _ _).1 (by rwa [otherEnd_otherEnd, otherEnd_otherEnd])))
    rwa [otherEnd_otherEnd, otherEnd_otherEnd] at this
  · intro q y' x' hw
    exact (h _ _).2 (q _ _ ((within_flip a b ny nx y x y' x').2 hw))

theorem seen_flip (m : Int) (h : ∀ y x, X' y x ↔ X (otherEnd a ny y) (otherEnd b nx x)) (y x : Int) :
    Seen ny nx m X' y x ↔ Seen ny nx m X (otherEnd a ny y) (otherEnd b nx x) := by
  unfold Seen
  rw [h]
  refine and_congr ?_ (and_congr ?_ Iff.rfl) <;> unfold otherEnd <;> split <;> omega

end

theorem toImg_mirror (rows cols : Bool) (ny nx : Nat) (f : Fin (ny * nx) → Bool) (y x : Int) (hy : 0 ≤ y ∧ y < ny) (hx : 0 ≤ x ∧ x < nx) :
    toImg ny nx (renumber (mirror rows cols ny nx) f) y x = toImg ny nx f (otherEnd rows ny y) (otherEnd cols nx x) := by
  obtain ⟨y, rfl⟩ := Int.eq_ofNat_of_zero_le hy.1
  obtain ⟨x, rfl⟩ := Int.eq_ofNat_of_zero_le hx.1
  have hy : y < ny := by omega
  have hx : x < nx := by omega
  have inside : ∀ {y x : Nat}, y < ny → x < nx → y * nx + x < ny * nx := by
    intro y x hy hx
    calc _ < y * nx + nx := by omega
      _ = (y + 1) * nx := by ring
      _ ≤ ny * nx := Nat.mul_le_mul_right _ hy
  have e1 : otherEnd rows ny (y : Int) = (fromOtherEnd rows ny y : Nat) := by unfold otherEnd fromOtherEnd; split <;> omega
  have e2 : otherEnd cols nx (x : Int) = (fromOtherEnd cols nx x : Nat) := by unfold otherEnd fromOtherEnd; split <;> omega
  unfold toImg
  rw [e1, e2, Int.toNat_natCast, Int.toNat_natCast, Int.toNat_natCast, Int.toNat_natCast, dif_pos (inside hy hx), dif_pos (inside (fromOtherEnd_lt hy) (fromOtherEnd_lt hx))]
  unfold renumber
  rw [mirror_symm]
  congr 1
  apply Fin.ext
  unfold mirrorCell
  dsimp only
  rw [show (y * nx + x) / nx = y by rw [Nat.mul_comm, Nat.mul_add_div (by omega), Nat.div_eq_of_lt hx, Nat.add_zero],
    show (y * nx + x) % nx = x by rw [Nat.mul_comm, Nat.mul_add_mod, Nat.mod_eq_of_lt hx]]

theorem continued_mirror (rows cols regional : Bool) {ny nx : Nat} (hny : 0 < ny) (hnx : 0 < nx) (f : Fin (ny * nx) → Bool) (y x : Int) :
    Continued regional ny nx (toImg ny nx (renumber (mirror rows cols ny nx) f)) y x ↔
      Continued regional ny nx (toImg ny nx f) (otherEnd rows ny y) (otherEnd cols nx x) := by
  unfold Continued
  have wrap : ∀ (b : Bool) (m : Nat), 0 < m → ∀ k : Int, otherEnd b m k % m = otherEnd b m (k % m) := by
    intro b m hm k
    unfold otherEnd
    split
    · exact emod_otherEnd m k (by omega)
    · rfl
  have edge : ∀ (b : Bool) (m : Nat), 0 < m → ∀ k : Int, max 0 (min ((m : Int) - 1) (otherEnd b m k)) = otherEnd b m (max 0 (min ((m : Int) - 1) k)) := by
    intro b m hm k
    unfold otherEnd
    split <;> omega
  split
  · rw [toImg_mirror rows cols ny nx f _ _ (by omega) (by omega), edge rows ny hny, edge cols nx hnx]
  · rw [toImg_mirror rows cols ny nx f _ _ ⟨Int.emod_nonneg _ (by omega), Int.emod_lt_of_pos _ (by omega)⟩
      ⟨Int.emod_nonneg _ (by omega), Int.emod_lt_of_pos _ (by omega)⟩, wrap rows ny hny, wrap cols nx hnx]

theorem fillFrameGrid_mirror (rows cols regional : Bool) (ny nx : Nat) (mask : Fin (ny * nx) → Bool) (R : Nat) (f : Fin (ny * nx) → Bool) :
    fillFrameGrid regional ny nx (renumber (mirror rows cols ny nx) mask) R (renumber (mirror rows cols ny nx) f) =
      renumber (mirror rows cols ny nx) (fillFrameGrid regional ny nx mask R f) := by
  refine renumber_ext _ fun i => ?_
  have hx := nx_pos i
  have r := row_lt i
  have c := Nat.mod_lt i.val hx
  have hny : 0 < ny := lt_of_le_of_lt (Nat.zero_le _) r
  have r0 : (0 : Int) ≤ ((i.val / nx : Nat) : Int) ∧ ((i.val / nx : Nat) : Int) < ny := ⟨Int.natCast_nonneg _, by exact_mod_cast r⟩
  unfold fillFrameGrid ofImg
  rw [mirror_apply, mirrorCell_row, mirrorCell_col]
  have e1 : ((fromOtherEnd rows ny (i.val / nx) : Nat) : Int) = otherEnd rows ny ((i.val / nx : Nat) : Int) := by unfold otherEnd fromOtherEnd; split <;> omega
  have e2 : ((fromOtherEnd cols nx (i.val % nx) : Nat) : Int) = otherEnd cols nx ((i.val % nx : Nat) : Int) := by unfold otherEnd fromOtherEnd; split <;> omega
  have b1 : 0 ≤ otherEnd rows ny ((i.val / nx : Nat) : Int) ∧ otherEnd rows ny ((i.val / nx : Nat) : Int) < ny := by
    generalize ((i.val / nx : Nat) : Int) = q at r0
    unfold otherEnd; split <;> omega
  have b2 : 0 ≤ otherEnd cols nx ((i.val % nx : Nat) : Int) ∧ otherEnd cols nx ((i.val % nx : Nat) : Int) < nx := by unfold otherEnd; split <;> omega
  rw [e1, e2, Bool.eq_iff_iff]
  by_cases hR : R = 0
  · subst hR
    rw [C06_radius_zero, C06_radius_zero, toImg_mirror rows cols ny nx f _ _ b1 b2, toImg_mirror rows cols ny nx mask _ _ b1 b2,
      otherEnd_otherEnd, otherEnd_otherEnd]
  · rw [C87_window_partial regional ny nx _ R hR, C87_window_partial regional ny nx _ R hR, toImg_mirror rows cols ny nx mask _ _ b1 b2,
      otherEnd_otherEnd, otherEnd_otherEnd]
    refine and_congr Iff.rfl ?_
    rw [dilated_flip (seen_flip _ (eroded_flip (seen_flip _ (eroded_flip (seen_flip _ (dilated_flip (seen_flip _
      (continued_mirror rows cols regional hny hx f)))))))), otherEnd_otherEnd, otherEnd_otherEnd]

/-! ### Objects, area filter and events under a renumbering that keeps touching cells touching -/

section
variable {e : Equiv.Perm (Fin n)} {regional : Bool} {nx : Nat}

theorem isExtreme_renumber (data : List (Fin n → Bool)) (t : Nat) (i : Fin n) : IsExtreme (data.map (renumber e)) t (e i) ↔ IsExtreme data t i := by
  unfold IsExtreme
  rw [List.getElem?_map]
  constructor
  · rintro ⟨d, hd, hi⟩
    obtain ⟨d0, h0, rfl⟩ := Option.map_eq_some_iff.1 hd
    rw [renumber_at] at hi
    exact ⟨d0, h0, hi⟩
  · rintro ⟨d, hd, hi⟩
    exact ⟨_, by rw [hd]; rfl, by rwa [renumber_at]⟩

theorem linkedStep_renumber (hT : ∀ i j, Touch regional nx (e i) (e j) ↔ Touch regional nx i j) (data : List (Fin n → Bool)) (t : Nat) (i j : Fin n) :
    Linked (JoinedInStep regional nx (data.map (renumber e)) t) (e i) (e j) ↔ Linked (JoinedInStep regional nx data t) i j := by
  constructor
  · intro hl
    have := linked_map (q := JoinedInStep regional nx data t) (fun c => e.symm c) (fun a b hab => by
      obtain ⟨a, rfl⟩ := e.surjective a
      obtain ⟨b, rfl⟩ := e.surjective b
      rw [e.symm_apply_apply, e.symm_apply_apply]
      exact ⟨(hT a b).1 hab.1, (isExtreme_renumber data t a).1 hab.2.1, (isExtreme_renumber data t b).1 hab.2.2⟩) hl
    rwa [e.symm_apply_apply, e.symm_apply_apply] at this
  · exact linked_map (fun c => e c) (fun a b hab => ⟨(hT a b).2 hab.1, (isExtreme_renumber data t a).2 hab.2.1, (isExtreme_renumber data t b).2 hab.2.2⟩)

theorem linkedTime_renumber (hT : ∀ i j, Touch regional nx (e i) (e j) ↔ Touch regional nx i j) (data : List (Fin n → Bool)) (t u : Nat) (i j : Fin n) :
    Linked (JoinedInTime regional nx (data.map (renumber e))) (t, e i) (u, e j) ↔ Linked (JoinedInTime regional nx data) (t, i) (u, j) := by
  constructor
  · intro hl
    have := linked_map (q := JoinedInTime regional nx data) (fun c : Nat × Fin n => (c.1, e.symm c.2)) (fun a b hab => by
      obtain ⟨s, a⟩ := a
      obtain ⟨v, b⟩ := b
      obtain ⟨a, rfl⟩ := e.surjective a
      obtain ⟨b, rfl⟩ := e.surjective b
      refine ⟨hab.1, ?_, ?_, ?_⟩
      · have := hab.2.1; simpa using (hT a b).1 this
      · simpa using (isExtreme_renumber data s a).1 hab.2.2.1
      · simpa using (isExtreme_renumber data v b).1 hab.2.2.2) hl
    simpa using this
  · exact linked_map (fun c : Nat × Fin n => (c.1, e c.2)) (fun a b hab => ⟨hab.1, (hT _ _).2 hab.2.1, (isExtreme_renumber data _ _).2 hab.2.2.1,
      (isExtreme_renumber data _ _).2 hab.2.2.2⟩)

theorem identify_groups {cc : Labeller} (hcc : CorrectLabeller cc) (hnx : 0 < nx) (hT : ∀ i j, Touch regional nx (e i) (e j) ↔ Touch regional nx i j)
    (data : List (Fin n → Bool)) :
    List.Forall₂ (StepGroups e) (identifyObjectsGrid cc false regional nx data) (identifyObjectsGrid cc false regional nx (data.map (renumber e))) := by
  rw [List.forall₂_iff_get]
  refine ⟨by rw [length_identify, length_identify, List.length_map], fun t h1 h2 => ?_⟩
  have g1 := List.getElem?_eq_getElem h1
  have g2 := List.getElem?_eq_getElem h2
  rw [List.get_eq_getElem, List.get_eq_getElem]
  generalize (identifyObjectsGrid cc false regional nx data)[t] = f at *
  generalize (identifyObjectsGrid cc false regional nx (data.map (renumber e)))[t] = f' at *
  have c1 := fun i j => C63_grid_objects_are_components cc hcc regional nx hnx data t t f f g1 g1 i j
  have c2 := fun i j => C63_grid_objects_are_components cc hcc regional nx hnx _ t t f' f' g2 g2 i j
  refine ⟨fun i => by rw [(c2 _ i).1, (c1 i i).1, isExtreme_renumber], fun i j hi => ?_⟩
  have hi' : 0 < f' (e i) := by rw [(c2 _ i).1, isExtreme_renumber, ← (c1 i i).1]; exact hi
  have k1 := (c1 i j).2
  have k2 := (c2 (e i) (e j)).2
  rw [isExtreme_renumber, isExtreme_renumber, linkedStep_renumber hT] at k2
  constructor
  · intro h; exact (k1.2 (k2.1 ⟨hi', h⟩)).2
  · intro h; exact (k2.2 (k1.1 ⟨hi, h⟩)).2

theorem uniqueLabels_identify {cc : Labeller} (hcc : CorrectLabeller cc) (hnx : 0 < nx) (data : List (Fin n → Bool)) :
    UniqueLabels (identifyObjectsGrid cc false regional nx data) := by
  intro t u f f' hf hf' i j h0 he
  exact ((C63_grid_objects_are_components cc hcc regional nx hnx data t u f f' hf hf' i j).2.mp ⟨h0, he⟩).1

/-- The area filter on the objects of a renumbered map. -/
theorem filterGrid_groups (c : AreaCriterion) {fs fs' : List (Fin n → Nat)} (h : List.Forall₂ (StepGroups e) fs fs') (hu : UniqueLabels fs) (hu' : UniqueLabels fs')
    (hone : ∀ t f, fs[t]? = some f → (∀ (s : Nat) (g : Fin n → Nat), s < t → fs[s]? = some g → ∀ i, g i = 0) → ∀ i j, 0 < f i → 0 < f j → f i = f j)
    (r : FilterResult n) (hr : filterGrid c fs = .ok r) : ∃ r', filterGrid c fs' = .ok r' ∧ r'.field = r.field.map (renumber e) ∧ r'.threshold = r.threshold := by
  have hp : ((objectTable fs').map (·.2)).Perm ((objectTable fs).map (·.2)) := by
    unfold objectTable
    clear hr hu hu' hone
    induction h with
    | nil => exact List.Perm.refl _
    | cons hh _ ih =>
      rw [List.flatMap_cons, List.flatMap_cons, List.map_append, List.map_append]
      exact (sizes_groups hh).append ih
  have hlen : (objectTable fs').length = (objectTable fs).length := by simpa using hp.length_eq
  have hthr : areaThreshold c ((objectTable fs').map (·.2)) = areaThreshold c ((objectTable fs).map (·.2)) := by
    unfold areaThreshold
    cases c with
    | quartile q => exact percentile_perm (hp.map _) q
    | absolute a => rfl
  obtain ⟨r', hr', ht⟩ : ∃ r', filterGrid c fs' = .ok r' ∧ r'.threshold = r.threshold := by
    unfold filterGrid at hr ⊢
    dsimp only at hr ⊢
    rw [hlen]
    split at hr
    · cases hr
    · rename_i hne
      rw [if_neg hne]
      simp only [Except.ok.injEq] at hr
      subst hr
      exact ⟨_, rfl, hthr⟩
  refine ⟨r', hr', ?_, ht⟩
  have l1 := (filterGrid_sub hr).1
  have l2 := (filterGrid_sub hr').1
  have hl := h.length_eq
  refine List.ext_getElem? fun t => ?_
  by_cases htl : t < fs.length
  · have g1 := List.getElem?_eq_getElem htl
    obtain ⟨f', g2, hg⟩ := forall₂_get h g1
    generalize fs[t] = f at g1 hg
    obtain ⟨k, hk, hki⟩ := C07_keeps_exactly_large_partial fs hu c r hr t f g1
    obtain ⟨k', hk', hki'⟩ := C07_keeps_exactly_large_partial fs' hu' c r' hr' t f' g2
    rw [List.getElem?_map, hk, hk', Option.map_some]
    congr 1
    refine renumber_ext e fun i => ?_
    rw [Bool.eq_iff_iff, hki, hki', hg.1, ht]
    refine and_congr_right fun h0 => ?_
    have h0' := (hg.1 i).2 h0
    rw [← cellCount_size, ← cellCount_size, cellCount_groups hg i h0]
    refine and_congr_right fun _ => not_congr ?_
    have before : (∀ (s : Nat) (g : Fin n → Nat), s < t → fs'[s]? = some g → ∀ i, g i = 0) ↔
        (∀ (s : Nat) (g : Fin n → Nat), s < t → fs[s]? = some g → ∀ i, g i = 0) := by
      constructor
      · intro q s g hs hg j
        obtain ⟨g', hg', hh⟩ := forall₂_get h hg
        have := q s g' hs hg' (e j)
        have := hh.1 j
        omega
      · intro q s g' hs hg' j
        have hsl : s < fs.length := by omega
        obtain ⟨g2, hg2, hh⟩ := forall₂_get h (List.getElem?_eq_getElem hsl)
        rw [hg'] at hg2
        cases hg2
        obtain ⟨j, rfl⟩ := e.surjective j
        have := q s _ hs (List.getElem?_eq_getElem hsl) j
        have := hh.1 j
        omega
    unfold IsFirst
    rw [before]
    refine and_congr_right fun hb => ?_
    have all := hone t f g1 hb
    constructor
    · intro _ f2 hf2 j hj
      rw [g1] at hf2
      cases hf2
      exact le_of_eq (all i j h0 hj)
    · intro _ f2 hf2 j hj
      rw [g2] at hf2
      cases hf2
      obtain ⟨j, rfl⟩ := e.surjective j
      exact le_of_eq ((hg.2 i j h0).2 (all i j h0 ((hg.1 j).1 hj)))
  · rw [List.getElem?_eq_none (by omega), List.getElem?_eq_none (by rw [List.length_map]; omega)]

end

/-- **C207**, events: with `allow_merging = False` the events of a preprocessed field are the same on a map whose rows or columns come in the opposite order
(or both): the same cells at the same steps belong together. -/
theorem C207_events {ny nx : Nat} (cc : Labeller) (hcc : CorrectLabeller cc) (hnx : 0 < nx) (rows cols : Bool) (p p' : GridRun ny nx)
    (hm : p.allowMerging = false) (hm' : p'.allowMerging = false) (hreg : p'.regional = p.regional) (chunks chunks' : List Nat)
    (pre : List (Fin (ny * nx) → Bool)) :
    SameGroups (mirror rows cols ny nx) (trackingGrid cc p chunks pre) (trackingGrid cc p' chunks' (pre.map (renumber (mirror rows cols ny nx)))) := by
  refine ⟨?_, ?_⟩
  · unfold trackingGrid
    rw [hm, hm']
    simp only [Bool.false_eq_true, if_false]
    rw [length_identify, length_identify, List.length_map]
  · intro t u f g f' g' hf hg hf' hg' i j
    rw [((C64_no_merging_events cc hcc hnx p hm chunks pre).1 t u f g hf hg i j).2,
      ((C64_no_merging_events cc hcc hnx p' hm' chunks' _).1 t u f' g' hf' hg' _ _).2, isExtreme_renumber, isExtreme_renumber, hreg,
      linkedTime_renumber (touch_mirror_iff rows cols ny nx p.regional)]

/-- The preprocessed field of the mirrored record. -/
theorem preprocessGrid_mirror {ny nx : Nat} (cc : Labeller) (hcc : CorrectLabeller cc) (hnx : 0 < nx) (rows cols : Bool) (p : GridRun ny nx)
    (data : List (Fin (ny * nx) → Bool)) (hone : OneFirst p.regional nx (fillStagesGrid p data)) (r : FilterResult (ny * nx))
    (q1 : preprocessGrid cc p data = .ok r) (track' : TrackCfg (ny * nx)) :
    ∃ r', preprocessGrid cc { p with mask := renumber (mirror rows cols ny nx) p.mask, track := track' } (data.map (renumber (mirror rows cols ny nx))) = .ok r' ∧
      r'.field = r.field.map (renumber (mirror rows cols ny nx)) := by
  set e := mirror rows cols ny nx with he
  have hfill : fillStagesGrid { p with mask := renumber e p.mask, track := track' } (data.map (renumber e)) = (fillStagesGrid p data).map (renumber e) := by
    unfold fillStagesGrid
    dsimp only
    have h1 : (data.map (renumber e)).map (fillFrameGrid p.regional ny nx (renumber e p.mask) p.R) =
        (data.map (fillFrameGrid p.regional ny nx p.mask p.R)).map (renumber e) := by
      rw [List.map_map, List.map_map]
      exact List.map_congr_left fun f _ => fillFrameGrid_mirror rows cols p.regional ny nx p.mask p.R f
    rw [h1]
    exact fillTimeGaps_renumber e _ _ (fun R f => fillFrameGrid_mirror rows cols p.regional ny nx p.mask R f) p.T p.R _
  unfold preprocessGrid at q1
  obtain ⟨r', q2, hf, -⟩ := filterGrid_groups p.criterion (identify_groups hcc hnx (touch_mirror_iff rows cols ny nx p.regional) (fillStagesGrid p data))
    (uniqueLabels_identify hcc hnx _) (uniqueLabels_identify hcc hnx _) (by
      intro t f hf hb i j hi hj
      have c := fun i j => C63_grid_objects_are_components cc hcc p.regional nx hnx (fillStagesGrid p data) t t f f hf hf i j
      refine ((c i j).2.2 ⟨rfl, (c i i).1.1 hi, (c j j).1.1 hj, hone t i j (fun s hs k hk => ?_) ((c i i).1.1 hi) ((c j j).1.1 hj)⟩).2
      have hsl : s < (identifyObjectsGrid cc false p.regional nx (fillStagesGrid p data)).length := by
        have := (List.getElem?_eq_some_iff.1 hf).1
        omega
      have := (C63_grid_objects_are_components cc hcc p.regional nx hnx _ s s _ _ (List.getElem?_eq_getElem hsl) (List.getElem?_eq_getElem hsl) k k).1.2 hk
      have := hb s _ hs (List.getElem?_eq_getElem hsl) k
      omega) r q1
  refine ⟨r', ?_, hf⟩
  unfold preprocessGrid
  rw [hfill]
  dsimp only
  rw [← he] at q2
  rw [q2]

/-- **C207**, whole run: on a map whose rows or columns come in the opposite order (mask alike) a run with `allow_merging = False` gives the same preprocessed
field at every cell and the same events, for every `R_fill`, `T_fill` and area criterion. Missing: records whose first extremes form several objects, of which
the area filter drops the first (`C207_area_filter_fails`). -/
theorem C207_run_partial {ny nx : Nat} (cc : Labeller) (hcc : CorrectLabeller cc) (hnx : 0 < nx) (rows cols : Bool) (p : GridRun ny nx)
    (hm : p.allowMerging = false) (chunks chunks' : List Nat) (data : List (Fin (ny * nx) → Bool)) (hone : OneFirst p.regional nx (fillStagesGrid p data))
    (pre : List (Fin (ny * nx) → Bool)) (ids : List (Frame (ny * nx))) (hr : runGrid cc p chunks data = .ok (pre, ids)) :
    ∃ ids', runGrid cc { p with mask := renumber (mirror rows cols ny nx) p.mask } chunks' (data.map (renumber (mirror rows cols ny nx))) =
        .ok (pre.map (renumber (mirror rows cols ny nx)), ids') ∧
      SameGroups (mirror rows cols ny nx) ids ids' := by
  obtain ⟨r, q1, rfl, rfl⟩ := runGrid_ok hr
  obtain ⟨r', q2, hf⟩ := preprocessGrid_mirror cc hcc hnx rows cols p data hone r q1 p.track
  refine ⟨trackingGrid cc { p with mask := renumber (mirror rows cols ny nx) p.mask } chunks' (r.field.map (renumber (mirror rows cols ny nx))), ?_,
    C207_events cc hcc hnx rows cols p _ hm hm rfl chunks chunks' r.field⟩
  unfold runGrid
  have q2' : preprocessGrid cc { p with mask := renumber (mirror rows cols ny nx) p.mask } (data.map (renumber (mirror rows cols ny nx))) = .ok r' := q2
  rw [q2', ← hf]

/-- Two cells at the first step, two more between. -/
def endCells : List (Fin (1 * 3) → Bool) := [fun i => i.val != 1, fun _ => true]

/-- **C207** negative: of two single cells at the first step the area filter drops the one that comes first on the map. -/
theorem C207_area_filter_fails : ∃ pre ids, runGrid quickFind (rowRun 3 true (1 / 2)) [2] endCells = .ok (pre, ids) ∧
    endCells.map (renumber (mirror false true 1 3)) = endCells ∧ ¬ IsExtreme pre 0 0 ∧ IsExtreme pre 0 (mirror false true 1 3 0) := by
  have h : (match runGrid quickFind (rowRun 3 true (1 / 2)) [2] endCells with
    | .ok ([a, _], _) => decide (a 0 = false ∧ a 2 = true) | _ => false) = true := by decide +kernel
  split at h
  · rename_i a b ids hr
    have k := of_decide_eq_true h
    refine ⟨_, _, hr, ?_, ?_, ⟨a, rfl, k.2⟩⟩
    · refine List.ext_getElem? fun t => ?_
      rw [List.getElem?_map]
      match t with
      | 0 => exact congrArg some (funext (by decide))
      | 1 => exact congrArg some (funext (by decide))
      | t + 2 => rfl
    · rintro ⟨d, hd, hi⟩
      cases hd
      rw [k.1] at hi
      cases hi
  · cases h

/-- **C207** negative: with merging the middle cell of the merged object, at equal distance from both, goes to the event that comes first on the map. -/
theorem C207_merging_tie_fails : endCells.map (renumber (mirror false true 1 3)) = endCells ∧
    SameEvent (trackingGrid quickFind (rowRun 3 true (1 / 3)) [2] endCells) 0 0 1 1 ∧
    ¬ SameEvent (trackingGrid quickFind (rowRun 3 true (1 / 3)) [2] endCells) 0 (mirror false true 1 3 0) 1 (mirror false true 1 3 1) := by
  have h : (match trackingGrid quickFind (rowRun 3 true (1 / 3)) [2] endCells with
    | [a, b] => decide (0 < a 0 ∧ a 0 = b 1 ∧ a 2 ≠ b 1) | _ => false) = true := by decide +kernel
  obtain ⟨-, -, -, e, -⟩ := C207_area_filter_fails
  split at h
  · rename_i a b hr
    have k := of_decide_eq_true h
    rw [hr]
    refine ⟨e, ⟨a, b, rfl, rfl, k.1, k.2.1⟩, ?_⟩
    rintro ⟨x, y, hx, hy, -, hxy⟩
    cases hx
    cases hy
    exact k.2.2 hxy
  · cases h

/-- Cell 1, then cells 0–2 of a row of five, then cell 4. -/
def cornerRow : List (Fin (1 * 5) → Bool) := [cellsFrom 1 1, cellsFrom 0 2, cellsFrom 4 4]

-- non-vacuity: one first object, dropped in both runs; the others are two events
example : OneFirst (cellsRun (.quartile (1 / 4))).regional 5 (fillStagesGrid (cellsRun (.quartile (1 / 4))) cornerRow) ∧
    (match runGrid quickFind (cellsRun (.absolute 1)) [3] cornerRow with
      | .ok (_, [a, b, c]) => decide (a 1 = 0 ∧ 0 < b 0 ∧ b 0 = b 2 ∧ 0 < c 4 ∧ c 4 ≠ b 0) | _ => false) = true ∧
    (match runGrid quickFind (cellsRun (.absolute 1)) [2, 1] (cornerRow.map (renumber (mirror false true 1 5))) with
      | .ok (_, [a, b, c]) => decide (a 3 = 0 ∧ 0 < b 4 ∧ b 4 = b 2 ∧ 0 < c 0 ∧ c 0 ≠ b 4) | _ => false) = true := by
  refine ⟨?_, by decide +kernel, by decide +kernel⟩
  intro t i j hb hi hj
  match t with
  | 0 =>
    have one : ∀ {i}, IsExtreme (fillStagesGrid (cellsRun (.quartile (1 / 4))) cornerRow) 0 i → i = 1 := by
      rintro i ⟨d, hd, hi⟩
      cases hd
      revert hi
      revert i
      decide +kernel
    rw [one hi, one hj]
    exact .refl _
  | t + 1 => exact absurd ⟨_, rfl, by decide +kernel⟩ (hb 0 (by omega) 1)

end MarEx.Props
