import Verif.Lemmas.SplitMerge
import Verif.Lemmas.Consolidate
import Verif.Lemmas.Rename
import Verif.Model.Partition
/-!
Lemmas about leaving objects out of a record: `ρ` renames the objects that stay, in an order-preserving way, and sends the others to 0 (no object).
-/
namespace MarEx

variable {n : Nat}

/-- `ρ` leaves objects out (value 0) and renumbers the others in the same order; IDs from `N` on are unused, and IDs from `N'` on are not taken. -/
structure Cut (ρ : Nat → Nat) (N N' : Nat) : Prop where
  zero : ρ 0 = 0
  mono : ∀ a b, ρ a ≠ 0 → ρ b ≠ 0 → a < b → ρ a < ρ b
  fresh : ∀ k, N ≤ k → ρ k = 0
  below : ∀ k, ρ k < N'

theorem Cut.inj {ρ : Nat → Nat} {N N' : Nat} (h : Cut ρ N N') {a b : Nat} (ha : ρ a ≠ 0) (e : ρ b = ρ a) : b = a := by
  have hb : ρ b ≠ 0 := by rw [e]; exact ha
  rcases Nat.lt_trichotomy a b with l | l | l
  · have := h.mono a b ha hb l; omega
  · exact l.symm
  · have := h.mono b a hb ha l; omega

def cutId (ρ : Nat → Nat) (k : Nat) : Option Nat := if ρ k = 0 then none else some (ρ k)
def cutObj (ρ : Nat → Nat) (o : Obj) : Option Obj := if ρ o.id = 0 then none else some { o with id := ρ o.id }
def cutOv (ρ : Nat → Nat) (o : Ov) : Option Ov := if ρ o.a = 0 ∨ ρ o.b = 0 then none else some ⟨ρ o.a, ρ o.b, o.v⟩
def cutProps (ρ : Nat → Nat) (l : List Obj) : List Obj := l.filterMap (cutObj ρ)
def cutOvs (ρ : Nat → Nat) (l : List Ov) : List Ov := l.filterMap (cutOv ρ)
def cutFrame (ρ : Nat → Nat) (f : Frame n) : Frame n := fun i => ρ (f i)

theorem mem_cutIds {ρ : Nat → Nat} {l : List Nat} {x : Nat} : x ∈ l.filterMap (cutId ρ) ↔ x ≠ 0 ∧ ∃ k ∈ l, ρ k = x := by
  rw [List.mem_filterMap]
  constructor
  · rintro ⟨k, hk, e⟩
    unfold cutId at e
    split at e
    · cases e
    · rename_i h; cases e; exact ⟨h, k, hk, rfl⟩
  · rintro ⟨h, k, hk, rfl⟩
    exact ⟨k, hk, by unfold cutId; rw [if_neg h]⟩

theorem sorted_ext {l l' : List Nat} (h : l.Pairwise (· < ·)) (h' : l'.Pairwise (· < ·)) (e : ∀ k, k ∈ l ↔ k ∈ l') : l = l' := by
  have hn : l.Nodup := h.imp (fun h => Nat.ne_of_lt h)
  have hn' : l'.Nodup := h'.imp (fun h => Nat.ne_of_lt h)
  exact List.Perm.eq_of_pairwise (fun a b _ _ h1 h2 => absurd h1 (Nat.lt_asymm h2)) h h' ((List.perm_ext_iff_of_nodup hn hn').mpr e)

theorem sorted_cutIds {ρ : Nat → Nat} {N N' : Nat} (hρ : Cut ρ N N') {l : List Nat} (h : l.Pairwise (· < ·)) :
    (l.filterMap (cutId ρ)).Pairwise (· < ·) := by
  refine List.Pairwise.filterMap _ (fun a a' haa' b hb b' hb' => ?_) h
  unfold cutId at hb hb'
  split at hb
  · cases hb
  · split at hb'
    · cases hb'
    · rename_i h1 h2
      cases hb; cases hb'
      exact hρ.mono a a' h1 h2 haa'

theorem npUnique_cut {ρ : Nat → Nat} {N N' : Nat} (hρ : Cut ρ N N') (l : List Nat) :
    npUnique (l.filterMap (cutId ρ)) = (npUnique l).filterMap (cutId ρ) := by
  refine sorted_ext (sorted_npUnique _) (sorted_cutIds hρ (sorted_npUnique _)) fun k => ?_
  rw [mem_npUnique, mem_cutIds, mem_cutIds]
  simp only [mem_npUnique]

theorem count_cut {ρ : Nat → Nat} {N N' : Nat} (hρ : Cut ρ N N') (l : List Nat) {k : Nat} (hk : ρ k ≠ 0) :
    (l.filterMap (cutId ρ)).count (ρ k) = l.count k := by
  induction l with
  | nil => rfl
  | cons a l ih =>
    rw [List.filterMap_cons]
    by_cases ha : ρ a = 0
    · have : a ≠ k := fun e => hk (e ▸ ha)
      simp [cutId, ha, ih, this]
    · have : (ρ a = ρ k) ↔ a = k := ⟨fun e => hρ.inj hk e, fun e => by rw [e]⟩
      simp [cutId, ha, List.count_cons, ih, this]

theorem repeated_cut {ρ : Nat → Nat} {N N' : Nat} (hρ : Cut ρ N N') (l : List Nat) :
    repeated (l.filterMap (cutId ρ)) = (repeated l).filterMap (cutId ρ) := by
  unfold repeated
  refine sorted_ext ((sorted_npUnique _).filter _) (sorted_cutIds hρ ((sorted_npUnique _).filter _)) fun k => ?_
  rw [List.mem_filter, mem_npUnique, mem_cutIds, mem_cutIds]
  simp only [List.mem_filter, mem_npUnique, decide_eq_true_eq]
  constructor
  · rintro ⟨⟨h, a, ha, rfl⟩, hc⟩
    rw [count_cut hρ l h] at hc
    exact ⟨h, a, ⟨ha, hc⟩, rfl⟩
  · rintro ⟨h, a, ⟨ha, hc⟩, rfl⟩
    rw [count_cut hρ l h]
    exact ⟨⟨h, a, ha, rfl⟩, hc⟩

/-! ### The object table -/

theorem find_cut {ρ : Nat → Nat} {N N' : Nat} (hρ : Cut ρ N N') (l : List Obj) {k : Nat} (hk : ρ k ≠ 0) :
    (cutProps ρ l).find? (fun o => o.id == ρ k) = (l.find? fun o => o.id == k).map fun o => { o with id := ρ k } := by
  unfold cutProps
  induction l with
  | nil => rfl
  | cons a l ih =>
    rw [List.filterMap_cons]
    by_cases ha : ρ a.id = 0
    · have : a.id ≠ k := fun e => hk (e ▸ ha)
      simp [cutObj, ha, ih, this]
    · by_cases e : a.id = k
      · simp [cutObj, e]
        rw [if_neg hk]; simp
      · have : ρ a.id ≠ ρ k := fun h => e (hρ.inj hk h)
        simp [cutObj, ha, ih, this, e]

theorem areaOf_cut {ρ : Nat → Nat} {N N' : Nat} (hρ : Cut ρ N N') (l : List Obj) {k : Nat} (hk : ρ k ≠ 0) :
    areaOf (cutProps ρ l) (ρ k) = areaOf l k := by
  unfold areaOf
  rw [find_cut hρ l hk, Option.map_map]
  rfl

theorem cenOf_cut {ρ : Nat → Nat} {N N' : Nat} (hρ : Cut ρ N N') (l : List Obj) {k : Nat} (hk : ρ k ≠ 0) :
    cenOf (cutProps ρ l) (ρ k) = cenOf l k := by
  unfold cenOf
  rw [find_cut hρ l hk, Option.map_map]
  rfl

theorem hasId_cut {ρ : Nat → Nat} {N N' : Nat} (hρ : Cut ρ N N') (l : List Obj) {k : Nat} (hk : ρ k ≠ 0) :
    hasId (cutProps ρ l) (ρ k) = hasId l k := by
  rw [Bool.eq_iff_iff, hasId_iff_area, hasId_iff_area, areaOf_cut hρ l hk]

theorem cutProps_append (ρ : Nat → Nat) (l m : List Obj) : cutProps ρ (l ++ m) = cutProps ρ l ++ cutProps ρ m := List.filterMap_append

theorem dropId_cut {ρ : Nat → Nat} {N N' : Nat} (hρ : Cut ρ N N') (l : List Obj) {k : Nat} (hk : ρ k ≠ 0) :
    cutProps ρ (dropId l k) = dropId (cutProps ρ l) (ρ k) := by
  unfold cutProps dropId
  induction l with
  | nil => rfl
  | cons a l ih =>
    by_cases ha : ρ a.id = 0
    · have : a.id ≠ k := fun e => hk (e ▸ ha)
      simp [cutObj, ha, this] at ih ⊢
      simpa using ih
    · by_cases e : a.id = k
      · subst e
        simp [cutObj, ha] at ih ⊢
        simpa using ih
      · have h2 : ρ a.id ≠ ρ k := fun h => e (hρ.inj hk h)
        simp [cutObj, ha, h2, e] at ih ⊢
        simpa using ih

theorem dropId_out {ρ : Nat → Nat} (l : List Obj) {k : Nat} (hk : ρ k = 0) : cutProps ρ (dropId l k) = cutProps ρ l := by
  unfold cutProps dropId
  induction l with
  | nil => rfl
  | cons a l ih =>
    by_cases e : a.id = k
    · simp [cutObj, e, hk] at ih ⊢
      simpa using ih
    · rw [List.filter_cons_of_pos (by simpa using e), List.filterMap_cons, List.filterMap_cons, ih]

theorem setRow_cut {ρ : Nat → Nat} {N N' : Nat} (hρ : Cut ρ N N') (l : List Obj) (r : Obj) (hk : ρ r.id ≠ 0) :
    cutProps ρ (setRow l r) = setRow (cutProps ρ l) { r with id := ρ r.id } := by
  unfold cutProps setRow
  induction l with
  | nil => rfl
  | cons a l ih =>
    rw [List.map_cons, List.filterMap_cons, List.filterMap_cons]
    by_cases ha : ρ a.id = 0
    · have : a.id ≠ r.id := fun e => hk (e ▸ ha)
      simp only [if_neg this, cutObj, if_pos ha]
      exact ih
    · by_cases e : a.id = r.id
      · simp only [if_pos e, cutObj, if_neg hk, if_neg ha, List.map_cons, if_pos (congrArg ρ e)]
        exact congrArg _ ih
      · have h2 : ρ a.id ≠ ρ r.id := fun h => e (hρ.inj hk h)
        simp only [if_neg e, cutObj, if_neg ha, List.map_cons, if_neg h2]
        exact congrArg _ ih

theorem setRow_out {ρ : Nat → Nat} (l : List Obj) (r : Obj) (hk : ρ r.id = 0) : cutProps ρ (setRow l r) = cutProps ρ l := by
  unfold cutProps setRow
  induction l with
  | nil => rfl
  | cons a l ih =>
    rw [List.map_cons, List.filterMap_cons, List.filterMap_cons, ih]
    by_cases e : a.id = r.id
    · simp only [cutObj, hk, if_true, e]
    · simp only [if_neg e]

theorem cutProps_congr {ρ ρ₁ : Nat → Nat} {l : List Obj} (h : ∀ o ∈ l, ρ₁ o.id = ρ o.id) : cutProps ρ₁ l = cutProps ρ l := by
  unfold cutProps
  refine List.filterMap_congr fun o ho => ?_
  unfold cutObj
  rw [h o ho]

/-! ### Objects of a frame -/

theorem cutFrame_eq_iff {ρ : Nat → Nat} {N N' : Nat} (hρ : Cut ρ N N') (f : Frame n) {k : Nat} (hk : ρ k ≠ 0) (i : Fin n) :
    cutFrame ρ f i = ρ k ↔ f i = k :=
  ⟨fun e => hρ.inj hk e, fun e => congrArg ρ e⟩

theorem weightOf_cut {ρ : Nat → Nat} {N N' : Nat} (hρ : Cut ρ N N') (w : Fin n → ℚ) (f : Frame n) {k : Nat} (hk : ρ k ≠ 0) :
    weightOf w (cutFrame ρ f) (ρ k) = weightOf w f k := by
  unfold weightOf
  simp only [cutFrame_eq_iff hρ f hk]

theorem idsOf_cut {ρ : Nat → Nat} {N N' : Nat} (hρ : Cut ρ N N') (f : Frame n) : idsOf (cutFrame ρ f) = (idsOf f).filterMap (cutId ρ) := by
  refine sorted_ext (sorted_npUnique _) (sorted_cutIds hρ (sorted_npUnique _)) fun k => ?_
  rw [mem_idsOf', mem_cutIds]
  constructor
  · rintro ⟨h, i, rfl⟩
    refine ⟨by omega, f i, mem_idsOf'.mpr ⟨?_, i, rfl⟩, rfl⟩
    rcases Nat.eq_zero_or_pos (f i) with e | e
    · exfalso
      unfold cutFrame at h
      rw [e, hρ.zero] at h
      omega
    · exact e
  · rintro ⟨h, a, ha, rfl⟩
    obtain ⟨_, i, rfl⟩ := mem_idsOf'.mp ha
    exact ⟨by omega, i, rfl⟩

theorem sharedWeight_cut {ρ : Nat → Nat} {N N' : Nat} (hρ : Cut ρ N N') (w : Fin n → ℚ) (f g : Frame n) {a b : Nat} (ha : ρ a ≠ 0) (hb : ρ b ≠ 0) :
    sharedWeight w (cutFrame ρ f) (cutFrame ρ g) (ρ a) (ρ b) = sharedWeight w f g a b := by
  unfold sharedWeight
  simp only [cutFrame_eq_iff hρ f ha, cutFrame_eq_iff hρ g hb]

theorem cellsWith_cut {ρ : Nat → Nat} {N N' : Nat} (hρ : Cut ρ N N') (f : Frame n) {k : Nat} (hk : ρ k ≠ 0) :
    cellsWith (cutFrame ρ f) (ρ k) = cellsWith f k := by
  unfold cellsWith
  refine List.filter_congr fun i _ => ?_
  rw [Bool.eq_iff_iff, beq_iff_eq, beq_iff_eq, cutFrame_eq_iff hρ f hk]

/-! ### Overlaps -/

/-- The order of the rows of an overlap table. -/
def OvLt (o p : Ov) : Prop := o.a < p.a ∨ o.a = p.a ∧ o.b < p.b

theorem sorted_slice (w : Fin n → ℚ) (f g : Frame n) : (checkOverlapSlice w f g).Pairwise OvLt := by
  unfold checkOverlapSlice
  dsimp only
  split
  · exact List.Pairwise.nil
  · refine List.Pairwise.map _ (fun x y hxy => ?_) (sorted_npUnique _)
    unfold OvLt
    dsimp only
    generalize max (fieldMax f) (fieldMax g + 1) = M
    have h1 : x / M ≤ y / M := Nat.div_le_div_right (le_of_lt hxy)
    rcases Nat.lt_or_eq_of_le h1 with h | h
    · exact Or.inl h
    · refine Or.inr ⟨h, ?_⟩
      have hx := Nat.div_add_mod x M
      have hy := Nat.div_add_mod y M
      rw [h] at hx
      omega

theorem ov_ext {l l' : List Ov} (h : l.Pairwise OvLt) (h' : l'.Pairwise OvLt) (e : ∀ o, o ∈ l ↔ o ∈ l') : l = l' := by
  have hne : ∀ a b : Ov, OvLt a b → a ≠ b := by
    rintro a b hab rfl
    unfold OvLt at hab
    omega
  have hn : l.Nodup := h.imp (hne _ _)
  have hn' : l'.Nodup := h'.imp (hne _ _)
  refine List.Perm.eq_of_pairwise (fun a b _ _ h1 h2 => ?_) h h' ((List.perm_ext_iff_of_nodup hn hn').mpr e)
  unfold OvLt at h1 h2
  omega

theorem mem_cutOvs {ρ : Nat → Nat} {l : List Ov} {x : Ov} :
    x ∈ cutOvs ρ l ↔ ∃ o ∈ l, ρ o.a ≠ 0 ∧ ρ o.b ≠ 0 ∧ x = ⟨ρ o.a, ρ o.b, o.v⟩ := by
  unfold cutOvs
  rw [List.mem_filterMap]
  constructor
  · rintro ⟨o, ho, e⟩
    unfold cutOv at e
    split at e
    · cases e
    · rename_i h
      push Not at h
      cases e
      exact ⟨o, ho, h.1, h.2, rfl⟩
  · rintro ⟨o, ho, h1, h2, rfl⟩
    exact ⟨o, ho, by unfold cutOv; rw [if_neg (by push Not; exact ⟨h1, h2⟩)]⟩

theorem sorted_cutOvs {ρ : Nat → Nat} {N N' : Nat} (hρ : Cut ρ N N') {l : List Ov} (h : l.Pairwise OvLt) : (cutOvs ρ l).Pairwise OvLt := by
  refine List.Pairwise.filterMap _ (fun a a' haa' b hb b' hb' => ?_) h
  unfold cutOv at hb hb'
  split at hb
  · cases hb
  · split at hb'
    · cases hb'
    · rename_i h1 h2
      push Not at h1 h2
      cases hb; cases hb'
      rcases haa' with h | ⟨h, h'⟩
      · exact Or.inl (hρ.mono _ _ h1.1 h2.1 h)
      · exact Or.inr ⟨congrArg ρ h, hρ.mono _ _ h1.2 h2.2 h'⟩

/-- Overlaps of the remaining objects. -/
theorem checkOverlapSlice_cut {ρ : Nat → Nat} {N N' : Nat} (hρ : Cut ρ N N') (w : Fin n → ℚ) (f g : Frame n) :
    checkOverlapSlice w (cutFrame ρ f) (cutFrame ρ g) = cutOvs ρ (checkOverlapSlice w f g) := by
  refine ov_ext (sorted_slice _ _ _) (sorted_cutOvs hρ (sorted_slice _ _ _)) fun o => ?_
  rw [mem_checkOverlapSlice, mem_cutOvs]
  constructor
  · rintro ⟨h1, h2, ⟨i, hf, hg⟩, hv⟩
    have ha : ρ (f i) ≠ 0 := by unfold cutFrame at hf; omega
    have hb : ρ (g i) ≠ 0 := by unfold cutFrame at hg; omega
    refine ⟨⟨f i, g i, sharedWeight w f g (f i) (g i)⟩, mem_checkOverlapSlice.mpr ⟨?_, ?_, ⟨i, rfl, rfl⟩, rfl⟩, ha, hb, ?_⟩
    · exact Nat.pos_of_ne_zero fun e => ha (by rw [show f i = 0 from e, hρ.zero])
    · exact Nat.pos_of_ne_zero fun e => hb (by rw [show g i = 0 from e, hρ.zero])
    · dsimp only
      rw [← sharedWeight_cut hρ w f g ha hb]
      cases o
      dsimp only at hf hg hv ⊢
      subst hf hg hv
      rfl
  · rintro ⟨p, hp, ha, hb, rfl⟩
    obtain ⟨_, _, ⟨i, hf, hg⟩, hv⟩ := mem_checkOverlapSlice.mp hp
    refine ⟨Nat.pos_of_ne_zero ha, Nat.pos_of_ne_zero hb, ⟨i, congrArg ρ hf, congrArg ρ hg⟩, ?_⟩
    dsimp only
    rw [sharedWeight_cut hρ w f g ha hb, hv]

/-- Both objects of each row stay or both are left out. -/
def RowsApart (ρ : Nat → Nat) (l : List Ov) : Prop := ∀ o ∈ l, (ρ o.a = 0 ↔ ρ o.b = 0)

theorem enforceOverlap_cut {ρ : Nat → Nat} {N N' : Nat} (hρ : Cut ρ N N') (thr : ℚ) (props : List Obj) (l : List Ov) :
    enforceOverlap thr (cutProps ρ props) (cutOvs ρ l) = cutOvs ρ (enforceOverlap thr props l) := by
  unfold enforceOverlap cutOvs
  rw [List.filter_filterMap, List.filterMap_filter]
  refine List.filterMap_congr fun o _ => ?_
  unfold cutOv
  by_cases h : ρ o.a = 0 ∨ ρ o.b = 0
  · simp [h]
  · have h' := h
    push Not at h'
    rw [if_neg h]
    simp only [Option.filter_some, areaOf_cut hρ props h'.1, areaOf_cut hρ props h'.2]

theorem map_a_cut {ρ : Nat → Nat} {l : List Ov} (h : RowsApart ρ l) : (cutOvs ρ l).map (·.a) = (l.map (·.a)).filterMap (cutId ρ) := by
  unfold cutOvs
  rw [List.map_filterMap, List.filterMap_map]
  refine List.filterMap_congr fun o ho => ?_
  have := h o ho
  unfold cutOv cutId
  by_cases ha : ρ o.a = 0
  · simp [ha]
  · have hb : ρ o.b ≠ 0 := fun e => ha (this.mpr e)
    simp [ha, hb]

theorem map_b_cut {ρ : Nat → Nat} {l : List Ov} (h : RowsApart ρ l) : (cutOvs ρ l).map (·.b) = (l.map (·.b)).filterMap (cutId ρ) := by
  unfold cutOvs
  rw [List.map_filterMap, List.filterMap_map]
  refine List.filterMap_congr fun o ho => ?_
  have := h o ho
  unfold cutOv cutId
  by_cases ha : ρ o.a = 0
  · simp [ha, this.mp ha]
  · have hb : ρ o.b ≠ 0 := fun e => ha (this.mpr e)
    simp [ha, hb]

/-- Rows of one child. -/
theorem filter_b_cut {ρ : Nat → Nat} {N N' : Nat} (hρ : Cut ρ N N') (l : List Ov) {k : Nat} (hk : ρ k ≠ 0) :
    (cutOvs ρ l).filter (fun o => o.b == ρ k) = cutOvs ρ (l.filter fun o => o.b == k) := by
  unfold cutOvs
  rw [List.filter_filterMap, List.filterMap_filter]
  refine List.filterMap_congr fun o _ => ?_
  unfold cutOv
  by_cases h : ρ o.a = 0 ∨ ρ o.b = 0
  · simp [h]
  · rw [if_neg h]
    have : (ρ o.b = ρ k) ↔ o.b = k := ⟨fun e => hρ.inj hk e, fun e => by rw [e]⟩
    by_cases e : o.b = k <;> simp [e, this, Option.filter_some]

theorem filter_a_cut {ρ : Nat → Nat} {N N' : Nat} (hρ : Cut ρ N N') (l : List Ov) {k : Nat} (hk : ρ k ≠ 0) :
    (cutOvs ρ l).filter (fun o => o.a == ρ k) = cutOvs ρ (l.filter fun o => o.a == k) := by
  unfold cutOvs
  rw [List.filter_filterMap, List.filterMap_filter]
  refine List.filterMap_congr fun o _ => ?_
  unfold cutOv
  by_cases h : ρ o.a = 0 ∨ ρ o.b = 0
  · simp [h]
  · rw [if_neg h]
    have : (ρ o.a = ρ k) ↔ o.a = k := ⟨fun e => hρ.inj hk e, fun e => by rw [e]⟩
    by_cases e : o.a = k <;> simp [e, this, Option.filter_some]

/-- Rows none of which is left out. -/
theorem cutOvs_all {ρ : Nat → Nat} {l : List Ov} (h : ∀ o ∈ l, ρ o.a ≠ 0 ∧ ρ o.b ≠ 0) :
    cutOvs ρ l = l.map fun o => ⟨ρ o.a, ρ o.b, o.v⟩ := by
  unfold cutOvs
  rw [← List.filterMap_eq_map]
  refine List.filterMap_congr fun o ho => ?_
  unfold cutOv
  rw [if_neg (by push Not; exact h o ho)]
  rfl

/-! ### Settings of the tracker -/

/-- Centroids depend only on the cells of an object, and the partition of an object only on the cells, areas and centroids of its parents. -/
structure Faithful (c : TrackCfg n) : Prop where
  ok : PartitionOK c
  cen : ∀ (f g : Frame n) (k l : Nat), (∀ i, f i = k ↔ g i = l) → c.cen f k = c.cen g l
  part : ∀ (ρ : Nat → Nat) (N N' : Nat), Cut ρ N N' → ∀ (prev cur cur' : Frame n) (child child' : Nat) (parents childIds : List Nat) (props : List Obj)
    (i : Fin n), (∀ p ∈ parents, ρ p ≠ 0) →
    c.part (cutFrame ρ prev) cur' child' (parents.map ρ) (childIds.map ρ) (cutProps ρ props) i = ρ (c.part prev cur child parents childIds props i)

theorem objOf_cut {ρ : Nat → Nat} {N N' : Nat} (hρ : Cut ρ N N') {c : TrackCfg n} (hc : Faithful c) (f : Frame n) {k : Nat} (hk : ρ k ≠ 0) :
    objOf c (cutFrame ρ f) (ρ k) = { objOf c f k with id := ρ k } := by
  unfold objOf
  rw [weightOf_cut hρ c.w f hk, hc.cen (cutFrame ρ f) f (ρ k) k (cutFrame_eq_iff hρ f hk)]

theorem calcProps_cut {ρ : Nat → Nat} {N N' : Nat} (hρ : Cut ρ N N') {c : TrackCfg n} (hc : Faithful c) (f : Frame n) :
    calcProps c (cutFrame ρ f) = cutProps ρ (calcProps c f) := by
  unfold calcProps cutProps
  rw [idsOf_cut hρ, List.map_filterMap, List.filterMap_map]
  refine List.filterMap_congr fun k _ => ?_
  unfold cutId
  simp only [Function.comp_apply, cutObj]
  by_cases hk : ρ k = 0
  · simp [hk, objOf]
  · rw [if_neg hk, if_neg (by exact hk), Option.map_some, objOf_cut hρ hc f hk]
    rfl

/-! ### Consolidation -/

def cutPair (ρ : Nat → Nat) (st : Frame n × List Obj) : Frame n × List Obj := (cutFrame ρ st.1, cutProps ρ st.2)

/-- What is at each cell: nothing, an object that stays (`true`) or one that is left out. -/
def side (ρ : Nat → Nat) (f : Frame n) (i : Fin n) : Option Bool := if f i = 0 then none else some (decide (ρ (f i) ≠ 0))

theorem side_relabel {ρ : Nat → Nat} (f : Frame n) {old new : Nat} (h1 : old ≠ 0) (h2 : new ≠ 0) (h : ρ old = 0 ↔ ρ new = 0) :
    side ρ (relabel f old new) = side ρ f := by
  funext i
  unfold side relabel
  by_cases e : f i = old
  · rw [if_pos e, if_neg h2, e, if_neg h1]
    simp [h]
  · rw [if_neg e]

theorem cutFrame_relabel {ρ : Nat → Nat} {N N' : Nat} (hρ : Cut ρ N N') (f : Frame n) {old : Nat} (new : Nat) (h1 : ρ old ≠ 0) :
    cutFrame ρ (relabel f old new) = relabel (cutFrame ρ f) (ρ old) (ρ new) := by
  funext i
  unfold relabel
  by_cases e : f i = old
  · rw [if_pos ((cutFrame_eq_iff hρ f h1 i).mpr e)]
    simp [cutFrame, e]
  · rw [if_neg fun h => e ((cutFrame_eq_iff hρ f h1 i).mp h)]
    simp [cutFrame, e]

theorem cutFrame_relabel_out {ρ : Nat → Nat} (f : Frame n) {old new : Nat} (h1 : ρ old = 0) (h2 : ρ new = 0) :
    cutFrame ρ (relabel f old new) = cutFrame ρ f := by
  funext i
  unfold cutFrame relabel
  by_cases e : f i = old
  · simp [e, h1, h2]
  · simp [e]

theorem consolidateChild_cut {ρ : Nat → Nat} {N N' : Nat} (hρ : Cut ρ N N') (first child : Nat) (h2 : ρ child ≠ 0)
    (st : Frame n × List Obj) : consolidateChild (ρ first) (cutPair ρ st) (ρ child) = cutPair ρ (consolidateChild first st child) := by
  unfold consolidateChild cutPair
  dsimp only
  rw [hasId_cut hρ st.2 h2]
  split
  · dsimp only
    rw [cutFrame_relabel hρ st.1 first h2, dropId_cut hρ st.2 h2]
  · rfl

theorem consolidateChild_out {ρ : Nat → Nat} {first child : Nat} (h1 : ρ first = 0) (h2 : ρ child = 0) (st : Frame n × List Obj) :
    cutPair ρ (consolidateChild first st child) = cutPair ρ st := by
  unfold consolidateChild cutPair
  split
  · dsimp only
    rw [cutFrame_relabel_out st.1 h2 h1, dropId_out st.2 h2]
  · rfl

theorem children_cut {ρ : Nat → Nat} {N N' : Nat} (hρ : Cut ρ N N') {ovs : List Ov} (ha : RowsApart ρ ovs) {p : Nat} (hp : ρ p ≠ 0) :
    ((cutOvs ρ ovs).filter fun o => o.a == ρ p).map (·.b) = ((ovs.filter fun o => o.a == p).map (·.b)).map ρ := by
  rw [filter_a_cut hρ ovs hp, cutOvs_all]
  · simp [Function.comp_def]
  · intro o ho
    rw [List.mem_filter, beq_iff_eq] at ho
    have h1 : ρ o.a ≠ 0 := by rw [ho.2]; exact hp
    exact ⟨h1, fun e => h1 ((ha o ho.1).mpr e)⟩

theorem any_cut {ρ : Nat → Nat} {N N' : Nat} (hρ : Cut ρ N N') (f : Frame n) {k : Nat} (hk : ρ k ≠ 0) :
    (List.finRange n).any (fun i => cutFrame ρ f i == ρ k) = (List.finRange n).any fun i => f i == k := by
  congr 1
  funext i
  rw [Bool.eq_iff_iff, beq_iff_eq, beq_iff_eq, cutFrame_eq_iff hρ f hk]

theorem consolidateParent_cut {ρ : Nat → Nat} {N N' : Nat} (hρ : Cut ρ N N') {c : TrackCfg n} (hc : Faithful c) {ovs : List Ov} (ha : RowsApart ρ ovs)
    (st : Frame n × List Obj) {p : Nat} (hp : ρ p ≠ 0) :
    consolidateParent c (cutOvs ρ ovs) (cutPair ρ st) (ρ p) = cutPair ρ (consolidateParent c ovs st p) := by
  unfold consolidateParent
  rw [children_cut hρ ha hp, show hasId (cutPair ρ st).2 (ρ p) = hasId st.2 p from hasId_cut hρ st.2 hp]
  split
  · have hb : ∀ k ∈ (ovs.filter fun o => o.a == p).map (·.b), ρ k ≠ 0 := by
      intro k hk
      obtain ⟨o, ho, rfl⟩ := List.mem_map.mp hk
      rw [List.mem_filter, beq_iff_eq] at ho
      exact fun e => hp (by rw [← ho.2]; exact (ha o ho.1).mpr e)
    generalize (ovs.filter fun o => o.a == p).map (·.b) = l at hb
    cases l with
    | nil => rfl
    | cons first rest =>
      rw [List.map_cons]
      dsimp only
      have hf : ρ first ≠ 0 := hb first (by simp)
      rw [show hasId (cutPair ρ st).2 (ρ first) = hasId st.2 first from hasId_cut hρ st.2 hf, List.isEmpty_map]
      have hfold : ∀ (rest : List Nat) (st : Frame n × List Obj), (∀ k ∈ rest, ρ k ≠ 0) →
          (rest.map ρ).foldl (consolidateChild (ρ first)) (cutPair ρ st) = cutPair ρ (rest.foldl (consolidateChild first) st) := by
        intro rest
        induction rest with
        | nil => intro st _; rfl
        | cons k rest ih =>
          intro st h
          rw [List.map_cons, List.foldl_cons, List.foldl_cons, consolidateChild_cut hρ first k (h k (by simp))]
          exact ih _ fun k hk => h k (by simp [hk])
      rw [hfold rest st fun k hk => hb k (by simp [hk])]
      split
      · rfl
      · generalize rest.foldl (consolidateChild first) st = st1
        rw [show (List.finRange n).any (fun i => (cutPair ρ st1).1 i == ρ first) = (List.finRange n).any fun i => st1.1 i == first from
          any_cut hρ st1.1 hf]
        split
        · unfold cutPair
          dsimp only
          rw [setRow_cut hρ st1.2 (objOf c st1.1 first) hf, objOf_cut hρ hc st1.1 hf]
          rfl
        · rfl
  · rfl

theorem consolidateParent_out {ρ : Nat → Nat} (c : TrackCfg n) {ovs : List Ov} (ha : RowsApart ρ ovs)
    (st : Frame n × List Obj) {p : Nat} (hp : ρ p = 0) : cutPair ρ (consolidateParent c ovs st p) = cutPair ρ st := by
  unfold consolidateParent
  split
  · have hb : ∀ k ∈ (ovs.filter fun o => o.a == p).map (·.b), ρ k = 0 := by
      intro k hk
      obtain ⟨o, ho, rfl⟩ := List.mem_map.mp hk
      rw [List.mem_filter, beq_iff_eq] at ho
      exact (ha o ho.1).mp (by rw [ho.2]; exact hp)
    generalize (ovs.filter fun o => o.a == p).map (·.b) = l at hb
    cases l with
    | nil => rfl
    | cons first rest =>
      dsimp only
      have hf : ρ first = 0 := hb first (by simp)
      have hfold : ∀ (rest : List Nat) (st : Frame n × List Obj), (∀ k ∈ rest, ρ k = 0) →
          cutPair ρ (rest.foldl (consolidateChild first) st) = cutPair ρ st := by
        intro rest
        induction rest with
        | nil => intro st _; rfl
        | cons k rest ih =>
          intro st h
          rw [List.foldl_cons, ih _ fun k hk => h k (by simp [hk]), consolidateChild_out hf (h k (by simp))]
      have hr := hfold rest st fun k hk => hb k (by simp [hk])
      split
      · rfl
      · split
        · rw [← hr]
          unfold cutPair
          dsimp only
          rw [setRow_out _ _ (by exact hf)]
        · exact hr
  · rfl

/-- Bounds and sides are kept by consolidation. -/
structure Kept (ρ : Nat → Nat) (N : Nat) (st st₀ : Frame n × List Obj) : Prop where
  side : side ρ st.1 = side ρ st₀.1
  lt : ∀ i, st.1 i < N
  tlt : ∀ o ∈ st.2, o.id < N

theorem tlt_setRow {N : Nat} {l : List Obj} {r : Obj} (h : ∀ o ∈ l, o.id < N) (hr : r.id < N) : ∀ o ∈ setRow l r, o.id < N := by
  intro o ho
  unfold setRow at ho
  obtain ⟨p, hp, rfl⟩ := List.mem_map.mp ho
  split
  · exact hr
  · exact h p hp

theorem consolidateParent_kept {ρ : Nat → Nat} {N : Nat} (c : TrackCfg n) {ovs : List Ov} (ha : RowsApart ρ ovs)
    (hpos : ∀ o ∈ ovs, o.b ≠ 0) (hlt : ∀ o ∈ ovs, o.b < N) (st st₀ : Frame n × List Obj) (p : Nat) (h : Kept ρ N st st₀) :
    Kept ρ N (consolidateParent c ovs st p) st₀ := by
  unfold consolidateParent
  split
  · have hb : ∀ k ∈ (ovs.filter fun o => o.a == p).map (·.b), k ≠ 0 ∧ k < N ∧ (ρ k = 0 ↔ ρ p = 0) := by
      intro k hk
      obtain ⟨o, ho, rfl⟩ := List.mem_map.mp hk
      rw [List.mem_filter, beq_iff_eq] at ho
      exact ⟨hpos o ho.1, hlt o ho.1, by rw [← ho.2]; exact (ha o ho.1).symm⟩
    generalize (ovs.filter fun o => o.a == p).map (·.b) = l at hb
    cases l with
    | nil => exact h
    | cons first rest =>
      dsimp only
      obtain ⟨f1, f2, f3⟩ := hb first (by simp)
      have hfold : ∀ (rest : List Nat) (st : Frame n × List Obj), (∀ k ∈ rest, k ≠ 0 ∧ k < N ∧ (ρ k = 0 ↔ ρ p = 0)) → Kept ρ N st st₀ →
          Kept ρ N (rest.foldl (consolidateChild first) st) st₀ := by
        intro rest
        induction rest with
        | nil => intro st _ h; exact h
        | cons k rest ih =>
          intro st hk h
          rw [List.foldl_cons]
          refine ih _ (fun k h => hk k (by simp [h])) ?_
          obtain ⟨k1, k2, k3⟩ := hk k (by simp)
          unfold consolidateChild
          split
          · refine ⟨?_, ?_, ?_⟩
            · dsimp only
              rw [side_relabel st.1 k1 f1 (k3.trans f3.symm), h.side]
            · intro i
              dsimp only
              unfold relabel
              split
              · exact f2
              · exact h.lt i
            · intro o ho
              exact h.tlt o (List.mem_of_mem_filter ho)
          · exact h
      have hr := hfold rest st (fun k hk => hb k (by simp [hk])) h
      split
      · exact h
      · split
        · exact ⟨hr.side, hr.lt, tlt_setRow hr.tlt f2⟩
        · exact hr
  · exact h

/-- Two frames in which no object that stays shares a cell with one that is left out. -/
def Apart (x y : Fin n → Option Bool) : Prop := ∀ i a b, x i = some a → y i = some b → a = b

theorem rowsApart_slice {ρ : Nat → Nat} (w : Fin n → ℚ) {f g : Frame n} (h : Apart (side ρ f) (side ρ g)) (thr : ℚ) (props : List Obj) :
    RowsApart ρ (enforceOverlap thr props (checkOverlapSlice w f g)) := by
  intro o ho
  obtain ⟨h1, h2, ⟨i, hf, hg⟩, _⟩ := mem_checkOverlapSlice.mp (List.mem_of_mem_filter ho)
  have := h i (decide (ρ (f i) ≠ 0)) (decide (ρ (g i) ≠ 0)) (by unfold side; rw [if_neg (by omega)]) (by unfold side; rw [if_neg (by omega)])
  rw [hf, hg, decide_eq_decide] at this
  exact not_iff_not.mp this

theorem consolidate_cut {ρ : Nat → Nat} {N N' : Nat} (hρ : Cut ρ N N') {c : TrackCfg n} (hc : Faithful c) (f2 f1 : Frame n)
    (ha : Apart (side ρ f2) (side ρ f1)) (props : List Obj) (hlt : ∀ i, f1 i < N) (htlt : ∀ o ∈ props, o.id < N) :
    consolidate c (cutFrame ρ f2) (cutFrame ρ f1) (cutProps ρ props) = cutPair ρ (consolidate c f2 f1 props) ∧
    Kept ρ N (consolidate c f2 f1 props) (f1, props) := by
  unfold consolidate
  dsimp only
  rw [checkOverlapSlice_cut hρ, enforceOverlap_cut hρ]
  have hra := rowsApart_slice c.w ha c.thr props
  have hb : ∀ o ∈ enforceOverlap c.thr props (checkOverlapSlice c.w f2 f1), o.b ≠ 0 ∧ o.b < N := by
    intro o ho
    obtain ⟨_, h2, ⟨i, _, hg⟩, _⟩ := mem_checkOverlapSlice.mp (List.mem_of_mem_filter ho)
    exact ⟨by omega, hg ▸ hlt i⟩
  generalize enforceOverlap c.thr props (checkOverlapSlice c.w f2 f1) = ovs at hra hb
  rw [map_a_cut hra, repeated_cut hρ]
  generalize repeated (ovs.map (·.a)) = ps
  constructor
  · have gen : ∀ (ps : List Nat) (st : Frame n × List Obj),
        (ps.filterMap (cutId ρ)).foldl (consolidateParent c (cutOvs ρ ovs)) (cutPair ρ st) = cutPair ρ (ps.foldl (consolidateParent c ovs) st) := by
      intro ps
      induction ps with
      | nil => intro st; rfl
      | cons p ps ih =>
        intro st
        by_cases hp : ρ p = 0
        · rw [List.filterMap_cons_none (by simp [cutId, hp]), List.foldl_cons, ← ih, consolidateParent_out c hra st hp]
        · rw [List.filterMap_cons_some (b := ρ p) (by simp [cutId, hp]), List.foldl_cons, List.foldl_cons, consolidateParent_cut hρ hc hra st hp, ih]
    exact gen ps (f1, props)
  · have gen : ∀ (ps : List Nat) (st : Frame n × List Obj), Kept ρ N st (f1, props) → Kept ρ N (ps.foldl (consolidateParent c ovs) st) (f1, props) := by
      intro ps
      induction ps with
      | nil => intro st h; exact h
      | cons p ps ih =>
        intro st h
        exact ih _ (consolidateParent_kept c hra (fun o ho => (hb o ho).1) (fun o ho => (hb o ho).2) st _ p h)
    exact gen ps _ ⟨rfl, hlt, htlt⟩

end MarEx
