import Verif.Model.EventVars
/-!
# What the documentation says about the variables of the events

`/repo/docs/modules/track.rst` 560–579, `/repo/docs/user_guide.rst` 237–253, `/repo/docs/quickstart.rst` 74–83.
-/
namespace MarEx.Spec

/-- The documented data variables with their dimensions, in terms of the caller's dimension names; a mesh has no `y`. -/
def documentedVars (t : String) (space : List String) : List DsVar :=
  [⟨"ID_field", t :: space⟩, ⟨"global_ID", [t, "ID"]⟩, ⟨"area", [t, "ID"]⟩, ⟨"centroid", ["component", t, "ID"]⟩,
   ⟨"presence", [t, "ID"]⟩, ⟨"time_start", ["ID"]⟩, ⟨"time_end", ["ID"]⟩, ⟨"merge_ledger", [t, "ID", "sibling_ID"]⟩]

end MarEx.Spec
