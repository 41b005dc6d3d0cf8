import Verif.Lemmas.Components
import Verif.Props.Mesh
/-! Properties C10, C11: object identification on a mesh. -/
namespace MarEx.Props
open MarEx Spec

variable {n : Nat}

/-- Cells `a` and `b` are neighbours in the grid file and both are extreme ocean cells. -/
def JoinedCells (nbr : NbrTable n) (mask data : Fin n → Bool) (a b : Fin n) : Prop :=
  ListsNeighbour nbr a b ∧ (mask a = true ∧ data a = true) ∧ (mask b = true ∧ data b = true)

/-- **C10**: whatever correct component routine is used, two extreme ocean cells get the same object ID iff they are
joined by a chain of neighbouring extreme ocean cells. -/
theorem C10_same_object_iff_connected (cc : Labeller) (hcc : CorrectLabeller cc) (nbr : NbrTable n)
    (mask data : Fin n → Bool) (i j : Fin n) (hi : mask i = true ∧ data i = true) (hj : mask j = true ∧ data j = true) :
    identifyObjectsMesh cc nbr mask data i = identifyObjectsMesh cc nbr mask data j
      ↔ Linked (JoinedCells nbr mask data) i j := by
  rw [identifyObjectsMesh_eq, identifyObjectsMesh_eq, clusterTrueValues_same hcc (by simp [hi]) (by simp [hj])]
  constructor <;> refine Linked.mono fun a b h => ?_ <;> simpa [JoinedCells, Adjacent] using h

/-- **C10**: a cell has ID 0 iff it is not an extreme ocean cell. -/
theorem C10_background_zero (cc : Labeller) (nbr : NbrTable n) (mask data : Fin n → Bool) (i : Fin n) :
    identifyObjectsMesh cc nbr mask data i = 0 ↔ ¬ (mask i = true ∧ data i = true) := by
  rw [identifyObjectsMesh_eq]
  have := clusterTrueValues_pos (cc := cc) (nbr := nbr) (arr := fun i => mask i && data i) (i := i)
  simp only [Bool.and_eq_true] at this
  rw [← this]
  omega

/-- The contract assumed of the component routine is met by an actual routine. -/
theorem C10_contract_satisfiable : CorrectLabeller quickFind := quickFind_correct

-- non-vacuity: cells 1,2 and 4,5 of a strip are extreme; cell 3 is land, so there are two objects
example : (List.finRange 7).map (identifyObjectsMesh quickFind (strip 7) (fun i => i != 3)
    (fun i => decide (1 ≤ i.val ∧ i.val ≤ 5))) = [0, 1, 1, 0, 2, 2, 0] := by decide +kernel

/-- **C11**: a positive ID occurs at one time step only. -/
theorem C11_ids_never_repeat (fs : List (Fin n → Nat)) (t t' : Nat) (g g' : Fin n → Nat)
    (hg : (uniqueAcrossTime 0 fs)[t]? = some g) (hg' : (uniqueAcrossTime 0 fs)[t']? = some g')
    (i j : Fin n) (hpos : 0 < g i) (heq : g i = g' j) : t = t' := by
  rcases Nat.lt_trichotomy t t' with h | h | h
  · have := uniqueAcrossTime_lt 0 fs t t' h g g' hg hg' i j (by omega); omega
  · exact h
  · have := uniqueAcrossTime_lt 0 fs t' t h g' g hg' hg j i (by omega); omega

/-- **C11**: inside a step background stays background, and the IDs keep their order (in particular distinct objects stay
distinct, and cells of one object keep sharing an ID). -/
theorem C11_step_order_kept (fs : List (Fin n → Nat)) (t : Nat) (f : Fin n → Nat) (hf : fs[t]? = some f) :
    ∃ g, (uniqueAcrossTime 0 fs)[t]? = some g ∧ (∀ i, g i = 0 ↔ f i = 0) ∧ (∀ i j, g i < g j ↔ f i < f j) := by
  obtain ⟨k, _, hk⟩ := uniqueAcrossTime_get 0 fs t f hf
  refine ⟨_, hk, fun i => ?_, fun i j => ?_⟩
  · split <;> omega
  · split <;> split <;> omega

/-- **C10/C11 together**: in the object field handed to tracking, a cell at step `t` and a cell at step `t'` carry the same
positive ID iff the steps are equal and the cells are joined by a chain of neighbouring extreme ocean cells. -/
theorem C11_object_field_characterised (cc : Labeller) (hcc : CorrectLabeller cc) (nbr : NbrTable n)
    (mask : Fin n → Bool) (data : List (Fin n → Bool)) (t t' : Nat) (d d' : Fin n → Bool)
    (hd : data[t]? = some d) (hd' : data[t']? = some d') :
    ∃ g g', (objectFieldMesh cc nbr mask data)[t]? = some g ∧ (objectFieldMesh cc nbr mask data)[t']? = some g' ∧
      ∀ i j, (0 < g i ∧ g i = g' j) ↔
        (t = t' ∧ mask i = true ∧ d i = true ∧ mask j = true ∧ d' j = true ∧ Linked (JoinedCells nbr mask d) i j) := by
  have hm : ∀ (s : Nat) e, data[s]? = some e →
      (data.map (identifyObjectsMesh cc nbr mask))[s]? = some (identifyObjectsMesh cc nbr mask e) := by
    intro s e h; rw [List.getElem?_map, h]; rfl
  obtain ⟨g, hg, g0, gord⟩ := C11_step_order_kept _ t _ (hm t d hd)
  obtain ⟨g', hg', g0', gord'⟩ := C11_step_order_kept _ t' _ (hm t' d' hd')
  refine ⟨g, g', hg, hg', fun i j => ?_⟩
  have zero : g i = 0 ↔ ¬ (mask i = true ∧ d i = true) := by rw [g0, C10_background_zero]
  constructor
  · rintro ⟨hp, he⟩
    have htt := C11_ids_never_repeat _ t t' g g' hg hg' i j hp he
    subst htt
    rw [hd] at hd'; cases hd'
    rw [hg] at hg'; cases hg'
    have hi : mask i = true ∧ d i = true := by
      by_cases h : mask i = true ∧ d i = true
      · exact h
      · have := zero.mpr h; omega
    have hj : mask j = true ∧ d j = true := by
      by_cases h : mask j = true ∧ d j = true
      · exact h
      · have := (g0 j).mpr ((C10_background_zero cc nbr mask d j).mpr h); omega
    refine ⟨rfl, hi.1, hi.2, hj.1, hj.2, ?_⟩
    rw [← C10_same_object_iff_connected cc hcc nbr mask d i j hi hj]
    have h1 := gord i j
    have h2 := gord j i
    omega
  · rintro ⟨rfl, h1, h2, h3, h4, hl⟩
    rw [hd] at hd'; cases hd'
    rw [hg] at hg'; cases hg'
    refine ⟨?_, ?_⟩
    · have : ¬ g i = 0 := fun h => (zero.mp h) ⟨h1, h2⟩
      omega
    · rw [← C10_same_object_iff_connected cc hcc nbr mask d i j ⟨h1, h2⟩ ⟨h3, h4⟩] at hl
      have h1 := gord i j
      have h2 := gord j i
      omega

/-- **C11**: the positive IDs of the object field are exactly `1..N`, without gaps. -/
theorem C11_ids_contiguous (cc : Labeller) (hcc : CorrectLabeller cc) (nbr : NbrTable n) (mask : Fin n → Bool)
    (data : List (Fin n → Bool)) :
    ∃ N, ∀ k, (1 ≤ k ∧ k ≤ N) ↔ (0 < k ∧ ∃ g ∈ objectFieldMesh cc nbr mask data, ∃ i, g i = k) := by
  have := uniqueAcrossTime_contiguous 0 (data.map (identifyObjectsMesh cc nbr mask)) ?_
  · simpa only [Nat.zero_add, objectFieldMesh] using this
  · intro f hf
    obtain ⟨d, _, rfl⟩ := List.mem_map.mp hf
    simp only [identifyObjectsMesh_eq]
    exact clusterTrueValues_labels hcc nbr _

-- non-vacuity: two steps with two and one objects
example : (objectFieldMesh quickFind (strip 5) (fun _ => true)
    [fun i => decide (i.val ≠ 2), fun i => decide (i.val ≥ 3)]).map (fun g => (List.finRange 5).map g)
    = [[1, 1, 0, 2, 2], [0, 0, 0, 3, 3]] := by decide +kernel

end MarEx.Props
