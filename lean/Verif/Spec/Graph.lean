/-! Graph vocabulary used in the specifications: hop-bounded walks and connected chains. -/
namespace MarEx.Spec

/-- `HopsLE step k a b`: there is a walk from `a` to `b` using at most `k` steps of the relation `step`. -/
inductive HopsLE {V : Type} (step : V → V → Prop) : Nat → V → V → Prop
  | here (k : Nat) (a : V) : HopsLE step k a a
  | hop {k : Nat} {a b c : V} : step a b → HopsLE step k b c → HopsLE step (k + 1) a c

/-- `Linked E a b`: `a` and `b` are joined by a chain of `E`-links, each used in either direction. -/
inductive Linked {V : Type} (E : V → V → Prop) : V → V → Prop
  | refl (a : V) : Linked E a a
  | fwd {a b c : V} : Linked E a b → E b c → Linked E a c
  | bwd {a b c : V} : Linked E a b → E c b → Linked E a c

end MarEx.Spec
