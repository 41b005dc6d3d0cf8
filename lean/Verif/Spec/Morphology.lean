/-! Specification vocabulary: morphology in the plane of integer cells. -/
namespace MarEx.Spec

/-- Two cells of the plane at most `R` cells apart. -/
def Within (R : Nat) (y x y' x' : Int) : Prop := (y' - y) ^ 2 + (x' - x) ^ 2 ≤ (R : Int) ^ 2

/-- Dilation by a disc. -/
def Dilated (R : Nat) (X : Int → Int → Prop) (y x : Int) : Prop := ∃ y' x', Within R y x y' x' ∧ X y' x'

/-- Erosion by a disc. -/
def Eroded (R : Nat) (X : Int → Int → Prop) (y x : Int) : Prop := ∀ y' x', Within R y x y' x' → X y' x'

/-- Closing fills what the disc cannot enter. -/
def Closed (R : Nat) (X : Int → Int → Prop) : Int → Int → Prop := Eroded R (Dilated R X)

/-- Opening keeps what the disc can cover. -/
def Opened (R : Nat) (X : Int → Int → Prop) : Int → Int → Prop := Dilated R (Eroded R X)

/-- The set as it is seen in a window that reaches `m` cells beyond a map of `ny` rows and `nx` columns: nothing outside. -/
def Seen (ny nx m : Int) (X : Int → Int → Prop) (y x : Int) : Prop :=
  (-m ≤ y ∧ y < ny + m) ∧ (-m ≤ x ∧ x < nx + m) ∧ X y x

end MarEx.Spec
