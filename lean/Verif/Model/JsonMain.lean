import Verif.Model.Json
/-
Models `main` of `examples/json/json.cpp`.
-/

namespace Tok3n.Json

/-- What `main` (json.cpp:106-142) writes to `std::cout`: `s` is what `JsonObject::parse` sees of the document (line 132), `t`
what `string.parse` sees of its argument (line 129; its result is not used).  `none`: the program does not end, or ends in
an exception or undefined behaviour. -/
noncomputable def program (m : Machine) (t s : Span) : Option (List Nat) :=
  match Parse (ctx m) string t with
  | .done _ (.ok _) => match Parse (ctx m) jsonObject s with
    | .done _ (.ok ⟨some _, _⟩) => some []
    | .done _ (.ok ⟨none, _⟩) => some (lit "Json parse error!!!\n")
    | _ => none
  | _ => none

end Tok3n.Json
