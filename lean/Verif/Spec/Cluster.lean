import Mathlib.Data.List.SplitOn
import Mathlib.Data.String.Basic
/-! Vocabulary for the properties of the cluster helpers: the configuration of dask as a map from canonical (dotted)
setting names to values, how SLURM reads a time limit, and what it means that a link names a port. -/
namespace MarEx.Spec

/-- The configuration of dask: the value of each setting, if it has one. -/
abbrev DaskCfg := String → Option String

/-- The value a list of settings, applied one after the other, gives to `k`: the last one naming `k`. -/
def lastSetting (kv : List (String × String)) (k : String) : Option String :=
  (kv.reverse.find? (fun p => p.1 == k)).map Prod.snd

/-- SLURM's reading of `h…h:mm:ss` as a number of minutes (no value unless the fields are digits, the minutes are two
digits below 60 and the seconds are `00`). -/
def slurmMinutes (s : List Char) : Option Nat :=
  match s.splitOn ':' with
  | [h, m, z] =>
    if h.all Char.isDigit && m.all Char.isDigit && decide (2 ≤ h.length) && m.length == 2
        && decide (Nat.ofDigitChars 10 m 0 < 60) && z == ['0', '0'] then
      some (60 * Nat.ofDigitChars 10 h 0 + Nat.ofDigitChars 10 m 0)
    else none
  | _ => none

/-- The text `link` names the port `p` after the prefix `pre`: `:p/` stands there, `p` a non-empty run of digits. -/
def NamesPort (isDigit : Char → Bool) (link pre p : List Char) : Prop :=
  p ≠ [] ∧ (∀ c ∈ p, isDigit c = true) ∧ ∃ rest, link = pre ++ ':' :: p ++ '/' :: rest

end MarEx.Spec
