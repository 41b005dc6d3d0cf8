import Verif.Model.FillHoles
/-! Locality and translation lemmas for gridded morphology. -/
namespace MarEx

theorem mem_ogrid {R : Nat} {d : Int} : d ∈ ogrid R ↔ -(R : Int) ≤ d ∧ d ≤ R := by
  unfold ogrid
  simp only [List.mem_map, List.mem_range]
  constructor
  · rintro ⟨k, hk, rfl⟩; omega
  · intro h; exact ⟨(d + R).toNat, by omega, by omega⟩

theorem mem_seKernel {R : Nat} {d : Int × Int} :
    d ∈ seKernel R ↔ (-(R : Int) ≤ d.1 ∧ d.1 ≤ R) ∧ (-(R : Int) ≤ d.2 ∧ d.2 ≤ R) ∧ d.2 ^ 2 + d.1 ^ 2 < (R : Int) ^ 2 + 1 := by
  unfold seKernel
  simp only [List.mem_flatMap, List.mem_filterMap, mem_ogrid]
  constructor
  · rintro ⟨dy, hy, dx, hx, h⟩
    split at h
    · cases h; exact ⟨hy, hx, by assumption⟩
    · cases h
  · rintro ⟨hy, hx, h⟩
    exact ⟨d.1, hy, d.2, hx, by rw [if_pos h]⟩

/-- Two images look the same in a box of radius `r` around `(y,x)` and `(y',x')`. -/
def SameNear (H W r : Int) (f : Img) (y x : Int) (g : Img) (y' x' : Int) : Prop :=
  ∀ dy dx : Int, -r ≤ dy → dy ≤ r → -r ≤ dx → dx ≤ r →
    readImg H W f (y + dy) (x + dx) = readImg H W g (y' + dy) (x' + dx)
    ∧ inImg H W (y + dy) (x + dx) = inImg H W (y' + dy) (x' + dx)

theorem SameNear.dilate {H W r : Int} {f g : Img} {y x y' x' : Int} (R : Nat)
    (h : SameNear H W (r + R) f y x g y' x') :
    SameNear H W r (dilateImg H W R f) y x (dilateImg H W R g) y' x' := by
  intro dy dx h1 h2 h3 h4
  have hin := (h dy dx (by omega) (by omega) (by omega) (by omega)).2
  refine ⟨?_, hin⟩
  unfold readImg
  rw [hin]
  congr 1
  rw [Bool.eq_iff_iff]
  simp only [dilateImg, List.any_eq_true]
  constructor <;> rintro ⟨d, hd, hr⟩ <;> refine ⟨d, hd, ?_⟩ <;>
    have hm := mem_seKernel.mp hd <;>
    have := (h (dy + d.1) (dx + d.2) (by omega) (by omega) (by omega) (by omega)).1 <;>
    simp only [Int.add_assoc] at * <;> rw [← hr, this]

theorem SameNear.erode {H W r : Int} {f g : Img} {y x y' x' : Int} (R : Nat)
    (h : SameNear H W (r + R) f y x g y' x') :
    SameNear H W r (erodeImg H W R f) y x (erodeImg H W R g) y' x' := by
  intro dy dx h1 h2 h3 h4
  have hin := (h dy dx (by omega) (by omega) (by omega) (by omega)).2
  refine ⟨?_, hin⟩
  unfold readImg
  rw [hin]
  congr 1
  rw [Bool.eq_iff_iff]
  simp only [erodeImg, List.all_eq_true]
  constructor <;> intro hr d hd <;> have hr := hr d hd <;>
    have hm := mem_seKernel.mp hd <;>
    have := (h (dy + d.1) (dx + d.2) (by omega) (by omega) (by omega) (by omega)).1 <;>
    simp only [Int.add_assoc] at * <;> rw [← hr, this]

/-- Opening after closing at a point depends on the image within `4R`. -/
theorem SameNear.openClose {H W : Int} {f g : Img} {y x y' x' : Int} (R : Nat)
    (h : SameNear H W (4 * R) f y x g y' x') (hin : inImg H W y x = true) :
    openImg H W R (closeImg H W R f) y x = openImg H W R (closeImg H W R g) y' x' := by
  have e : (4 * R : Int) = 0 + R + R + R + R := by omega
  rw [e] at h
  have := (((h.dilate R).erode R).erode R).dilate R 0 0 (by omega) (by omega) (by omega) (by omega)
  simp only [Int.add_zero] at this
  obtain ⟨h1, h2⟩ := this
  unfold readImg at h1
  rw [← h2, hin] at h1
  simpa [openImg, closeImg] using h1

theorem dilateImg_mono {H W : Int} {R : Nat} {f g : Img} (h : ∀ y x, inImg H W y x = true → f y x = true → g y x = true)
    (y x : Int) : dilateImg H W R f y x = true → dilateImg H W R g y x = true := by
  simp only [dilateImg, List.any_eq_true, readImg, Bool.and_eq_true]
  rintro ⟨d, hd, h1, h2⟩
  exact ⟨d, hd, h1, h _ _ h1 h2⟩

theorem erodeImg_mono {H W : Int} {R : Nat} {f g : Img} (h : ∀ y x, inImg H W y x = true → f y x = true → g y x = true)
    (y x : Int) : erodeImg H W R f y x = true → erodeImg H W R g y x = true := by
  simp only [erodeImg, List.all_eq_true, readImg, Bool.and_eq_true]
  intro hr d hd
  exact ⟨(hr d hd).1, h _ _ (hr d hd).1 (hr d hd).2⟩

theorem neg_mem_seKernel {R : Nat} {d : Int × Int} (h : d ∈ seKernel R) : (-d.1, -d.2) ∈ seKernel R := by
  rw [mem_seKernel] at h ⊢
  refine ⟨by dsimp only; omega, by dsimp only; omega, ?_⟩
  have e1 : (-d.2) ^ 2 = d.2 ^ 2 := by rw [Int.pow_succ, Int.pow_succ, Int.pow_succ, Int.pow_succ]; simp [Int.neg_mul_neg]
  have e2 : (-d.1) ^ 2 = d.1 ^ 2 := by rw [Int.pow_succ, Int.pow_succ, Int.pow_succ, Int.pow_succ]; simp [Int.neg_mul_neg]
  dsimp only
  omega

theorem zero_mem_seKernel (R : Nat) : (0, 0) ∈ seKernel R := by
  rw [mem_seKernel]
  refine ⟨by dsimp only; omega, by dsimp only; omega, ?_⟩
  have : (0 : Int) ≤ (R : Int) ^ 2 := by
    rw [Int.pow_succ, Int.pow_succ, Int.pow_zero, Int.one_mul]; exact Int.mul_nonneg (by omega) (by omega)
  have e : (0 : Int) ^ 2 = 0 := by decide
  dsimp only
  omega

/-- Opening only removes cells. -/
theorem openImg_le {H W : Int} {R : Nat} {f : Img} {y x : Int} (h : openImg H W R f y x = true) : f y x = true := by
  simp only [openImg, dilateImg, List.any_eq_true, readImg, Bool.and_eq_true] at h
  obtain ⟨d, hd, -, he⟩ := h
  simp only [erodeImg, List.all_eq_true, readImg, Bool.and_eq_true] at he
  have := (he _ (neg_mem_seKernel hd)).2
  dsimp only at this
  have e1 : y + d.1 + -d.1 = y := by omega
  have e2 : x + d.2 + -d.2 = x := by omega
  rwa [e1, e2] at this

/-- A closed cell is in the dilation of the image. -/
theorem closeImg_le {H W : Int} {R : Nat} {f : Img} {y x : Int} (h : closeImg H W R f y x = true) :
    ∃ d ∈ seKernel R, readImg H W f (y + d.1) (x + d.2) = true := by
  simp only [closeImg, erodeImg, List.all_eq_true, readImg, Bool.and_eq_true] at h
  have := (h _ (zero_mem_seKernel R)).2
  simpa only [dilateImg, List.any_eq_true, Int.add_zero] using this

theorem padIndex_range {regional : Bool} {n p k : Int} (hn : 0 < n) :
    0 ≤ padIndex regional n p k ∧ padIndex regional n p k < n := by
  unfold padIndex
  split
  · omega
  · exact ⟨Int.emod_nonneg _ (by omega), Int.emod_lt_of_pos _ hn⟩

end MarEx
